{"id": "C01", "title": "Rigid-plus-scale transforms compose like functions", "statement": "For transforms A and B with unit rotation quaternions, applying the product A*B to a point gives the same point as applying B and then A; the product is associative and the default-constructed transform is a two-sided identity.", "quantifier": "all transforms with unit quaternions, all points, exact (real) arithmetic", "why_tests_cant": "The law ranges over a continuum of rotations, translations and scales; unit tests sample a few random transforms with a tolerance.", "anchors": ["momentum/math/transform.h: TransformT::operator*", "momentum/math/transform.cpp: transformPoint"]}
{"id": "C02", "title": "Transform inverse really inverts", "statement": "For a transform with unit quaternion and nonzero scale, composing with inverse() on either side yields the identity transform, and inverse() maps transformPoint(p) back to p.", "quantifier": "all transforms with unit quaternion and nonzero scale, all points", "why_tests_cant": "Continuum of inputs; the side conditions (nonzero scale, unit quaternion) are exactly what a sampled test never explores.", "anchors": ["momentum/math/transform.cpp: TransformT::inverse", "momentum/math/transform.h"]}
{"id": "C03", "title": "4x4 matrix view of a transform agrees with the transform", "statement": "toMatrix(A*B) = toMatrix(A)*toMatrix(B), toMatrix(A) applied to (p,1) equals (transformPoint(p),1), and toMatrix determines the point map.", "quantifier": "all transforms, all points", "why_tests_cant": "Same continuum argument; the agreement must hold exactly and not only near the identity.", "anchors": ["momentum/math/transform.h: toMatrix, toLinear, toRotationMatrix", "momentum/math/transform.cpp"]}
{"id": "C04", "title": "World transform of a joint is the product of local transforms along its ancestor chain", "statement": "After a skeleton state is computed from joint parameters, every joint's world transform equals the product of the local transforms of its ancestors from the root down to the joint, for any forest of joints in which parents precede children.", "quantifier": "all skeletons of any size and depth whose parents precede children, all joint parameter vectors", "why_tests_cant": "Number and shape of skeletons is unbounded; the property is an induction on hierarchy depth.", "anchors": ["momentum/character/skeleton_state.cpp: SkeletonStateT::set", "momentum/character/joint_state.cpp: JointStateT::set"]}
{"id": "C05", "title": "Relative transform between two joints", "statement": "transformAtoB(a, b) equals inverse(world(b)) * world(a) for every pair of joints, including pairs in different trees of the skeleton, and its loop always terminates with both walks on the same ancestor.", "quantifier": "all skeletons, all joint pairs, all states", "why_tests_cant": "Unbounded hierarchies and all pairs of joints; termination is a property of every input.", "anchors": ["momentum/character/skeleton_state.cpp: transformAtoB"]}
{"id": "C06", "title": "Ancestor test is the reflexive-transitive parent relation", "statement": "isAncestor(j, a) is true exactly when a is j or can be reached from j by following parent links; it is reflexive, transitive and antisymmetric.", "quantifier": "all skeletons with parents before children, all joint pairs", "why_tests_cant": "Relation over unbounded hierarchies.", "anchors": ["momentum/character/skeleton.cpp: SkeletonT::isAncestor"]}
{"id": "C07", "title": "Common ancestor is the lowest common ancestor", "statement": "commonAncestor(a, b) returns a joint that is an ancestor of both and of which every other common ancestor is an ancestor; if the two joints have no common ancestor it returns the invalid index.", "quantifier": "all skeletons (including forests), all joint pairs", "why_tests_cant": "Quantifies over all trees and all other common ancestors; test skeletons have one root.", "anchors": ["momentum/character/skeleton.cpp: SkeletonT::commonAncestor"]}
{"id": "C08", "title": "Children query returns exactly the descendants", "statement": "getChildrenJoints(j) (recursive) returns, in increasing order and without duplicates, exactly the proper descendants of j, and with recursive=false exactly the joints whose parent is j; an out-of-range joint raises an error.", "quantifier": "all skeletons with parents before children, all joint indices", "why_tests_cant": "Unbounded hierarchies.", "anchors": ["momentum/character/skeleton.h: getChildrenJoints"]}
{"id": "C09", "title": "Analytic joint derivatives are the true derivatives of forward kinematics", "statement": "For every joint in the chain above a point attached to a joint, the translation, rotation and scale derivatives reported by the joint state equal the partial derivatives of the point's world position with respect to that joint's seven parameters.", "quantifier": "all skeletons, all chains, all joint parameters, all attached points (real arithmetic)", "why_tests_cant": "Numerical differentiation in tests has only sampled states and tolerances; the claim is a calculus identity for all states.", "anchors": ["momentum/character/joint_state.cpp: getTranslationDerivative, getRotationDerivative, getScaleDerivative", "momentum/character/joint_state.cpp: JointStateT::set"]}
{"id": "C10", "title": "Joint rotation order and axes", "statement": "The local rotation of a joint is preRotation * Rz * Ry * Rx of its three rotation parameters, and the reported world rotation axes are the axes about which an infinitesimal change of each parameter rotates the joint.", "quantifier": "all joints, all parameters, all parent states", "why_tests_cant": "Continuum of angles, including gimbal configurations.", "anchors": ["momentum/character/joint_state.cpp: JointStateT::set"]}
{"id": "C11", "title": "Euler matrices equal the product of elementary rotations in the documented order", "statement": "The optimised XYZ and ZYX conversions return exactly Rx(a)Ry(b)Rz(c) and Rz(a)Ry(b)Rx(c) (intrinsic) and the reversed products (extrinsic), are rotation matrices, and agree with the quaternion route.", "quantifier": "all angle triples, both conventions", "why_tests_cant": "Trigonometric identities over all reals.", "anchors": ["momentum/math/utility.cpp: eulerXYZToRotationMatrix, eulerZYXToRotationMatrix, eulerToQuaternion, eulerToRotationMatrix"]}
{"id": "C12", "title": "Euler extraction inverts Euler composition", "statement": "Converting any rotation matrix to Euler XYZ or ZYX angles and back gives the same matrix, including in gimbal lock.", "quantifier": "all rotation matrices (orthogonal, determinant one), both orders and conventions", "why_tests_cant": "Gimbal-lock set has measure zero and is never hit by random tests.", "anchors": ["momentum/math/utility.cpp: rotationMatrixToEulerXYZ, rotationMatrixToEulerZYX"]}
{"id": "C13", "title": "Parameter transform is affine and inverse parameters reproduce the pose", "statement": "apply is the affine map p -> T p + offsets; for any joint parameter vector, the character parameters returned by the inverse parameter transform reproduce exactly that joint parameter vector, whatever the linear solver returns.", "quantifier": "all transforms, all joint parameter vectors, all solver outputs", "why_tests_cant": "Must hold even for rank-deficient transforms.", "anchors": ["momentum/character/parameter_transform.cpp: ParameterTransformT::apply", "momentum/character/inverse_parameter_transform.cpp: InverseParameterTransformT::apply"]}
{"id": "C14", "title": "Splitting parameters into pose and offsets preserves the pose", "statement": "splitParameters returns parameters whose pose entries in the chosen set are zero, the others are unchanged, and whose joint parameters are unchanged.", "quantifier": "all characters, all parameters, all parameter sets", "why_tests_cant": "All subsets of parameters.", "anchors": ["momentum/character/character.cpp: CharacterT::splitParameters"]}
{"id": "C15", "title": "Subsetting a parameter transform keeps the kept parameters' effect", "statement": "For a subset S of parameters, the subset transform applied to the restriction of p equals the original transform applied to p with the removed parameters set to zero; parameter sets, pose constraints, blend-shape indices and limits are renamed consistently, and every limit that mentions a removed parameter is dropped.", "quantifier": "all transforms, all subsets, all parameter vectors, all limits", "why_tests_cant": "All subsets and all limit lists.", "anchors": ["momentum/character/parameter_transform.cpp: subsetParameterTransform"]}
{"id": "C16", "title": "Joint remapping of a parameter transform", "statement": "After remapping joints, the new transform drives each mapped joint exactly as the old one drove its source joint, offsets included, and drives nothing else.", "quantifier": "all transforms, all injective joint maps", "why_tests_cant": "All joint maps.", "anchors": ["momentum/character/parameter_transform.cpp: mapParameterTransformJoints"]}
{"id": "C17", "title": "Adding blend-shape parameters does not disturb the pose", "statement": "Adding n blend-shape (or face-expression) parameters keeps all existing non-blend-shape parameters, appends n new ones, does not change joint parameters of any pose, and adding again replaces instead of accumulating.", "quantifier": "all transforms, all n, any sequence of additions", "why_tests_cant": "Any sequence of calls.", "anchors": ["momentum/character/parameter_transform.cpp: addBlendShapeParameters, addFaceExpressionParameters"]}
{"id": "C18", "title": "Passive joint limits clamp", "statement": "applyPassiveJointParameterLimits leaves every parameter without a passive limit unchanged, brings every limited parameter within its last passive limit, ignores non-passive limits, is idempotent, and never reads outside the vector.", "quantifier": "all limit lists, all joint parameter vectors", "why_tests_cant": "All limit lists including overlapping and inconsistent ranges and boundary indices.", "anchors": ["momentum/character/parameter_limits.cpp: applyPassiveJointParameterLimits"]}
{"id": "C19", "title": "Limit error is nonnegative, zero exactly when limits hold, and its gradient is its derivative", "statement": "For parameter min/max, linear and half-plane limits, the limit error is nonnegative (with nonnegative weights), is zero exactly when every enabled limit is satisfied, and the gradient function accumulates the derivative of that error.", "quantifier": "all limit lists, weights, enabled sets and parameter vectors", "why_tests_cant": "Derivative identity for all weights and all limit combinations; tests use weight one.", "anchors": ["momentum/character_solver/limit_error_function.cpp: getError, getGradient, getJacobian"]}
{"id": "C20", "title": "Skin weights remapping conserves influence", "statement": "Remapping skin weights to a simplified character keeps, for every vertex and every target joint, the sum of the weights of the source joints that map to it, so the total weight is conserved; weights end sorted in decreasing order.", "quantifier": "all weight tables, all joint maps", "why_tests_cant": "All assignments of eight influences and all maps, including duplicates.", "anchors": ["momentum/character/character.cpp: CharacterT::remapSkinWeights"]}
{"id": "C21", "title": "Simplifying a skeleton keeps a valid hierarchy and world poses of kept joints", "statement": "simplifySkeleton either reports an error or returns a skeleton whose parents precede children, containing exactly the enabled joints in order, each parented to its nearest enabled ancestor, with a joint map that sends every joint to its nearest enabled ancestor-or-self, never reads out of bounds, and reproduces the world transforms of the kept joints.", "quantifier": "all skeletons, all enabled sets, all poses of the enabled joints", "why_tests_cant": "All forests and all subsets.", "anchors": ["momentum/character/character.cpp: CharacterT::simplifySkeleton"]}
{"id": "C22", "title": "Removing joints removes exactly whole subtrees", "statement": "removeJoints returns a skeleton with exactly the joints that have no removed ancestor-or-self, in order, parents remapped consistently with parents before children; locators, collision capsules and limits are kept exactly when their joints are kept; skinning to a removed joint moves to the nearest kept ancestor.", "quantifier": "all characters, all sets of joints", "why_tests_cant": "All forests and subsets.", "anchors": ["momentum/character/character_utility.cpp: removeJoints, mapParents, mapParameterLimits, mapSkinWeights, addMappedParameters"]}
{"id": "C23", "title": "Replacing a skeleton hierarchy terminates with a valid merged skeleton", "statement": "replaceSkeletonHierarchy terminates on every input for which it does not report an error and yields a skeleton whose parents precede children.", "quantifier": "all pairs of characters and root names", "why_tests_cant": "Termination over all inputs.", "anchors": ["momentum/character/character_utility.cpp: replaceSkeletonHierarchy"]}
{"id": "C24", "title": "Scaling a character scales its poses", "statement": "With joint translations scaled by s, forward kinematics of the scaled character has the same rotations and s times the positions; capsules, locators and the inverse bind pose scale consistently, so skinned vertices scale by s.", "quantifier": "all characters, all s>0, all poses", "why_tests_cant": "All poses and all scales.", "anchors": ["momentum/character/character_utility.cpp: scaleCharacter"]}
{"id": "C25", "title": "Skinning in the bind pose reproduces the rest mesh and inverse skinning inverts skinning", "statement": "With weights summing to one (and non-zero weights first), skinning with the bind-pose state returns the input points; applying inverse skinning to skinned points returns the input points whenever the blended matrix is invertible; skinning is independent of how the vertex range is chunked across threads.", "quantifier": "all meshes, all weights, all states, all chunkings", "why_tests_cant": "All schedules of the parallel loop and all weight tables.", "anchors": ["momentum/character/linear_skinning.cpp: applySSD, applyInverseSSD, getInverseSSDTransformation"]}
{"id": "C26", "title": "Online QR represents the whole history of added rows", "statement": "After any sequence of add calls the factor R is upper triangular with R^T R = lambda^2 I + sum A_i^T A_i and R^T y = sum A_i^T b_i, and the accumulated right-hand side is reported as At_times_b.", "quantifier": "all sequences of added blocks of any size, all lambda (real arithmetic)", "why_tests_cant": "All histories of calls.", "anchors": ["momentum/math/online_householder_qr.cpp: OnlineHouseholderQR::addMutating, At_times_b", "computeHouseholderVec, applyHouseholderTransformation"]}
{"id": "C27", "title": "Online QR solution is the regularised least-squares minimiser", "statement": "When R has a nonzero diagonal, result() minimises lambda^2 |x|^2 + sum |A_i x - b_i|^2 over all x, uniquely, regardless of the order in which rows were added.", "quantifier": "all histories with a nonsingular factor, all competing x", "why_tests_cant": "Optimality against all x and all orders.", "anchors": ["momentum/math/online_householder_qr.cpp: OnlineHouseholderQR::result"]}
{"id": "C28", "title": "Block and banded online QR agree with the dense one", "statement": "The block and banded solvers, fed the same rows, represent the same normal equations as the dense solver and return the same minimiser.", "quantifier": "all block structures, all histories", "why_tests_cant": "All histories and block structures.", "anchors": ["momentum/math/online_householder_qr.cpp: OnlineBlockHouseholderQR, OnlineBandedHouseholderQR"]}
{"id": "C29", "title": "Low-rank covariance operations", "statement": "For covariance sigma^2 I + A^T A, times_vec multiplies by it, inverse_times_vec is its exact inverse, and logDeterminant is the log of its determinant.", "quantifier": "all sigma != 0, all A, all vectors", "why_tests_cant": "All sizes and matrices.", "anchors": ["momentum/math/covariance_matrix.cpp: LowRankCovarianceMatrixT"]}
{"id": "C30", "title": "Generalised loss is a valid robust loss and its deriv is its derivative", "statement": "For every alpha and c>0 the loss is zero at zero, nonnegative, nondecreasing in the squared error, and deriv(s) is the derivative of value at s.", "quantifier": "all alpha, all c>0, all s>=0", "why_tests_cant": "Calculus identities for all parameters, including the branch boundaries.", "anchors": ["momentum/math/generalized_loss.cpp: GeneralizedLossT::value, deriv"]}
{"id": "C31", "title": "Mesh normals are unit or zero and independent of bad faces", "statement": "updateNormals produces for each vertex a normal of length one or zero; faces with out-of-range indices are ignored without memory access; the result is equivariant under rotation.", "quantifier": "all meshes", "why_tests_cant": "All meshes.", "anchors": ["momentum/math/mesh.cpp: MeshT::updateNormals"]}
{"id": "C32", "title": "Solver loop respects its iteration bounds", "statement": "solve() performs at least min(minIterations,maxIterations) and at most maxIterations iterations, terminates, and stops early only when the reported error has converged by the threshold.", "quantifier": "all solver functions, options and starting points", "why_tests_cant": "All error sequences.", "anchors": ["momentum/solver/solver.cpp: SolverT::solve"]}
{"id": "C33", "title": "Disabled parameters are never moved by the solvers", "statement": "Parameters excluded by setEnabledParameters keep their initial values through any number of solver iterations of the subset Gauss-Newton solver.", "quantifier": "all solver functions, enabled sets and iteration counts", "why_tests_cant": "All subsets, all iteration counts.", "anchors": ["momentum/solver/subset_gauss_newton_solver.cpp: SubsetGaussNewtonSolverT::doIteration", "momentum/solver/gauss_newton_solver.cpp"]}
{"id": "C34", "title": "Line search only accepts sufficient decrease, or the shortest step", "statement": "With line search on, the accepted step either satisfies the sufficient decrease test or is the last of the bounded sequence of halvings.", "quantifier": "all error functions, all descent directions", "why_tests_cant": "All functions.", "anchors": ["momentum/solver/gauss_newton_solver.cpp: GaussNewtonSolverT::updateParameters", "momentum/solver/subset_gauss_newton_solver.cpp"]}
{"id": "C35", "title": "BVH construction is a faithful tree over the boxes", "statement": "After setBoundingBoxes the leaves partition the given primitives (each exactly once), leaves hold at most the leaf capacity, every node box contains the boxes of its descendants, and the flat layout's child offsets point at the children.", "quantifier": "all lists of boxes, all leaf capacities", "why_tests_cant": "All inputs, including coincident and degenerate boxes.", "anchors": ["axel/axel/Bvh.cpp: setBoundingBoxes, split"]}
{"id": "C36", "title": "BVH box and ray queries miss nothing", "statement": "Every primitive whose box intersects the query box (or is hit by the query ray) is reported by query, no primitive is reported twice, and the traversal never overruns its fixed-size stack or the caller's buffer.", "quantifier": "all trees built from any list of boxes, all queries", "why_tests_cant": "All trees; stack and buffer bounds are about worst cases.", "anchors": ["axel/axel/Bvh.cpp: query"]}
{"id": "C37", "title": "BVH pair traversal reports every overlapping pair once", "statement": "traverseOverlappingPairs reports every unordered pair of distinct primitives with intersecting boxes exactly once, and stops when the callback asks it to.", "quantifier": "all trees, all callbacks", "why_tests_cant": "All trees and callback behaviours.", "anchors": ["axel/axel/Bvh.h: traverseCollision, traverseSelfCollision, traverseOverlappingPairs"]}
{"id": "C38", "title": "BVH closest-point and closest-hit queries are exact", "statement": "The closest-surface-point query returns a primitive whose distance is minimal among all primitives within the search radius, and the closest-hit query the smallest hit distance, for any exact per-primitive callback.", "quantifier": "all trees, all queries, all per-primitive distance functions bounded below by the box distance", "why_tests_cant": "Pruning correctness over all inputs.", "anchors": ["axel/axel/Bvh.h: queryClosestHelper, rayQueryClosestHit"]}
{"id": "C39", "title": "BVH refit keeps containment", "statement": "After the primitives move and the tree is refit, every node box contains the boxes of its primitives, so queries still miss nothing.", "quantifier": "all trees, all sequences of refits", "why_tests_cant": "All histories of updates.", "anchors": ["axel/axel/Bvh.cpp: refit, checkBoundingBoxes"]}
{"id": "C40", "title": "Slab test decides ray-box intersection", "statement": "The ray/box test returns true exactly when some nonnegative ray parameter gives a point inside the box.", "quantifier": "all boxes, all rays with nonzero direction components (and the stated behaviour for zero components)", "why_tests_cant": "All rays; grazing and axis-parallel rays are measure-zero.", "anchors": ["axel/axel/BoundingBox.cpp: intersects, intersectsBranchless"]}
{"id": "C41", "title": "Point-triangle projection is the closest point", "statement": "projectOnTriangle returns a point of the triangle, and no point of the triangle is closer; the flag says exactly whether the orthogonal projection to the plane lies strictly inside. The packet version agrees with the scalar one in each lane.", "quantifier": "all nondegenerate triangles, all points", "why_tests_cant": "Optimality over a continuum; boundary regions.", "anchors": ["axel/axel/math/PointTriangleProjectionDefinitions.h: projectOnTriangle"]}
{"id": "C42", "title": "Ray-triangle intersection is sound and complete up to its epsilons", "statement": "When the test reports a hit, origin + t*direction equals the barycentric combination reported and lies in the triangle (up to the tolerance), whatever the sign of t; every point where a ray transversal by more than the tolerance meets the triangle is reported.", "quantifier": "all rays, all triangles", "why_tests_cant": "Continuum, boundary cases.", "anchors": ["axel/axel/math/RayTriangleIntersection.cpp: rayTriangleIntersect"]}
{"id": "C43", "title": "Closest points on two segments", "statement": "closestPointsOnSegments reports parameters in [0,1] whose points realise the minimum distance between the segments when that distance is within the bound, and failure only when the segments are farther apart than the bound. distanceEdgeEdge reports a closest pair and its distance.", "quantifier": "all segment pairs, including degenerate and parallel ones, all bounds", "why_tests_cant": "Minimum over a continuum; parallel case.", "anchors": ["momentum/math/utility.cpp: closestPointsOnSegments", "axel/axel/math/EdgeEdgeDistance.cpp"]}
{"id": "C44", "title": "Capsule broad-phase box contains the capsule, and reported overlaps are real", "statement": "The box computed for a tapered capsule contains every sphere swept along it, and whenever the narrow-phase test reports an overlap there is a point that belongs to both capsules.", "quantifier": "all capsules", "why_tests_cant": "Continuum.", "anchors": ["momentum/character/collision_geometry_state.h: overlaps, updateAabb"]}
{"id": "C45", "title": "k-d tree closest point is the brute-force closest point", "statement": "closestPoint returns not-found exactly when no (acceptable) point is strictly within the radius, and otherwise a point at the minimal distance, for every packet size; pointsInNSphere returns exactly the points within the radius once each; the traversal never overruns its fixed stack.", "quantifier": "all point sets, all queries, all acceptance predicates, all packet widths", "why_tests_cant": "All point sets; tree shapes up to the maximum depth.", "anchors": ["axel/axel/SimdKdTree.cpp: split, createLeafNode, closestPoint, closestPointWithAcceptance, pointsInNSphere"]}
{"id": "C46", "title": "Extrapolation of model parameters is bounded", "statement": "extrapolateModelParameters moves each active parameter by its last change clamped to +-maxDelta, leaves inactive parameters and mismatched sizes at the current pose.", "quantifier": "all parameter vectors, all active sets, all bounds", "why_tests_cant": "All vectors and sets.", "anchors": ["momentum/character/skeleton_utility.cpp: extrapolateModelParameters"]}
{"id": "C47", "title": "Skin weight table construction", "statement": "SkinWeights::set keeps the first eight influences of each vertex in order and pads with zeros, never writing out of bounds.", "quantifier": "all influence lists of any length", "why_tests_cant": "All list lengths.", "anchors": ["momentum/character/skin_weights.cpp: SkinWeights::set"]}
{"id": "C48", "title": "Motion and identity remapping by name", "statement": "Mapping a motion to a character copies each named row to the parameter of that name, leaves every other parameter zero, and mapping to the same character with unique names is the identity.", "quantifier": "all name lists, motions and characters", "why_tests_cant": "All name lists.", "anchors": ["momentum/character/character_utility.cpp: mapMotionToCharacter, mapIdentityToCharacter"]}
{"id": "C49", "title": "Unit conversions and NaN test", "statement": "Degree/radian and metre/centimetre conversions are mutually inverse; the bit-level NaN test is true exactly for the IEEE single-precision NaN bit patterns.", "quantifier": "all reals; all 2^32 bit patterns", "why_tests_cant": "All bit patterns.", "anchors": ["momentum/math/constants.h", "momentum/math/utility.h: IsNanNoOpt"]}
{"id": "C50", "title": "Quaternion to Euler angles keeps the rotation", "statement": "quaternionToEuler of a unit quaternion returns extrinsic XYZ angles that compose back to the same rotation.", "quantifier": "all unit quaternions (real arithmetic), including pitch of +-90 degrees", "why_tests_cant": "rotations form a continuum and the failure set (gimbal lock) has measure zero, so random tests never hit it", "anchors": ["momentum/math/utility.cpp: quaternionToEuler", "momentum/math/utility.cpp: eulerXYZToRotationMatrix"]}
{"id": "C51", "title": "Rotation vectors and quaternions convert back and forth", "statement": "Converting a unit quaternion to a rotation vector and back yields the same rotation (the quaternion up to sign) outside the small-angle tolerance and an error below 1/1000 inside it; converting a rotation vector of length between 1/1000 and pi to a quaternion and back yields the same vector.", "quantifier": "all unit quaternions; all rotation vectors of length between 1/1000 and pi", "why_tests_cant": "the branch at angle pi and the tolerance branch cut a continuum; tests sample it", "anchors": ["momentum/math/utility.cpp: quaternionToRotVec", "momentum/math/utility.cpp: rotVecToQuaternion"]}
{"id": "C52", "title": "Blend shapes and baking", "statement": "The shape computed from blend weights is the base shape plus the weighted sum of the shape vectors (more weights than shapes is an error); skinning with blend shapes is skinning of that shape in every pose; a character whose blend weights were baked into the mesh poses like the original with those weights.", "quantifier": "all blend shapes, weight vectors, poses, skin weights and schedules of the vertex loop", "why_tests_cant": "All shapes and weights; the parallel schedule.", "anchors": ["momentum/character/blend_shape.cpp: computeShape", "momentum/character/blend_shape_base.cpp: computeDeltas", "momentum/character/blend_shape_skinning.cpp: skinWithBlendShapes", "momentum/character/character.cpp: bakeBlendShape"]}
{"id": "C53", "title": "Transforming a character moves it rigidly", "statement": "In every pose, the transformed character's joints and skinned vertices are the rigidly moved joints and skinned vertices of the original.", "quantifier": "all skeletons, rigid transforms and poses", "why_tests_cant": "All poses and transforms.", "anchors": ["momentum/character/character_utility.cpp: transformCharacter"]}
{"id": "C54", "title": "Gauss-Newton variants take the same step", "statement": "On the same skeleton problem with the same regularisation, the Gauss-Newton, subset Gauss-Newton and QR Gauss-Newton solvers compute the same parameter step: the unique minimiser, over changes of the enabled parameters, of the squared norm of the linearised residual plus the regularisation.", "quantifier": "all error functions, residuals, Jacobians, enabled sets and positive regularisations", "why_tests_cant": "The space of Jacobians and enabled sets is unbounded.", "anchors": ["momentum/solver/gauss_newton_solver.cpp: GaussNewtonSolverT::doIterationDense", "momentum/solver/subset_gauss_newton_solver.cpp: SubsetGaussNewtonSolverT::doIteration", "momentum/character_solver/gauss_newton_solver_qr.cpp: GaussNewtonSolverQRT::doIteration"]}
{"id": "C55", "title": "Blockwise and stacked normal equations agree", "statement": "For every list of error functions, the JtJ and JtR accumulated block by block equal J^T J and J^T r of the stacked Jacobian and residual, whatever the padding rows and unused rows, and the errors returned by getJtJR, getJacobian and getError agree when each error function's own do.", "quantifier": "all lists of error functions, all weights and row counts", "why_tests_cant": "Depends on every layout of used and unused rows.", "anchors": ["momentum/character_solver/skeleton_solver_function.cpp: SkeletonSolverFunctionT::getJacobian, getJtJR, getError"]}
{"id": "C56", "title": "The trust region solver never increases the error", "statement": "An iteration of the trust region solver either keeps the parameters or moves to parameters with a smaller error, leaves disabled parameters alone, and keeps the radius positive; so the error never increases over a whole solve.", "quantifier": "all error functions, radii, enabled sets, iteration counts", "why_tests_cant": "Holds for every function and every history of radii.", "anchors": ["momentum/character_solver/trust_region_qr.cpp: TrustRegionQRT::doIteration"]}
{"id": "C57", "title": "Gradients and Jacobians of constraint error functions", "statement": "For every constraint error function (position, plane, orientation, aim, fixed axis, normal) the gradient it adds is the derivative of the error it reports with respect to each enabled model parameter, through the parameter transform and the whole joint hierarchy, and nothing for disabled ones; the Jacobian rows are the scaled values and derivatives of the constraint functions, 2 J^T r is the gradient, and with the L2 loss the error is the squared residual. Exempt are constraints whose value or derivative is non-zero but within the tolerance that the code takes for zero.", "quantifier": "all skeletons, parameter transforms, enabled sets, losses, weights, constraints and parameter values where the constraint functions are differentiable", "why_tests_cant": "A derivative is a statement about a continuum; numeric differentiation in tests samples it.", "anchors": ["momentum/character_solver/constraint_error_function-inl.h: getError, getGradient, getJacobian", "momentum/character_solver/position_error_function.cpp", "momentum/character_solver/plane_error_function.cpp", "momentum/character_solver/orientation_error_function.cpp", "momentum/character_solver/aim_error_function.cpp", "momentum/character_solver/fixed_axis_error_function.cpp", "momentum/character_solver/normal_error_function.cpp"]}
{"id": "C58", "title": "State error function", "statement": "The state error function, which pulls every joint's position and rotation and every model parameter to a target, adds as gradient the derivative of the error it reports, and its Jacobian is the derivative of its residuals, whose squares add up to the error and fill exactly the announced number of rows; the derivative of the error is 2 J^T r.", "quantifier": "all skeletons, parameter transforms, enabled sets, targets, non-negative weights and parameter values", "why_tests_cant": "A derivative is a statement about a continuum, and the claim ranges over all hierarchies and weights; the unit tests use parameter weights that hide a wrong factor.", "anchors": ["momentum/character_solver/state_error_function.cpp: getError, getGradient, getJacobian, getJacobianSize"]}
{"id": "C59", "title": "Model parameters error function", "statement": "The model parameters error function adds as gradient the derivative of the error it reports for enabled parameters and nothing for disabled ones; its Jacobian is the derivative of its residuals, whose squares add up to the error, and stays within the announced number of rows.", "quantifier": "all numbers of parameters, targets, weights, enabled sets and parameter values", "why_tests_cant": "A derivative is a statement about a continuum; tests sample it with a few weights.", "anchors": ["momentum/character_solver/model_parameters_error_function.cpp: getError, getGradient, getJacobian, getJacobianSize"]}
{"id": "C60", "title": "Mixture model and pose prior", "statement": "A mixture model set up from weights, means, principal axes and variances scores a pose under each mode by the logarithm of the weighted Gaussian density of that mode. The pose prior error function finds the likeliest mode for the model parameters it knows by name, reports half the squared Mahalanobis distance to it times the weights, and, where one mode is strictly likeliest, its gradient and Jacobian are the derivatives of that error and of residuals whose squares add up to it; its mean shape is the mean of that mode in the model's order. This holds whatever priors were set before.", "quantifier": "all dimensions, numbers of modes, means, axes, positive variances, parameter names, weights, parameter values and histories of setPosePrior", "why_tests_cant": "A statement about derivatives and densities on a continuum for every mixture, and about every history of priors; tests compare numerically at a few random poses with a fresh prior.", "anchors": ["momentum/math/mppca.cpp: MppcaT::set", "momentum/character_solver/pose_prior_error_function.cpp: setPosePrior, getError, logProbability, getGradient, getJacobian, getJacobianSize, getMeanShape"]}
{"id": "C61", "title": "Binary motion, blend shape and mixture model files round trip, and their damage is bounded", "statement": "Saving a motion and loading the file gives back the poses, offsets and names bit for bit; saving with a character and additional parameters and loading with the same character gives back that character's poses and offsets, and the additional parameters are found again under their names; for another character every parameter and joint gets what is stored under its name and 0 otherwise. Blend shapes and mixture models round trip likewise, with the limits on expected shapes and vertices applied. From a motion file that was cut off after the names, every number that is complete is loaded right.", "quantifier": "all motions, names, characters, additional parameters, shapes and mixture models whose sizes fit 64 bits, and every length at which a motion file is cut off", "why_tests_cant": "A test writes a few files and reads them back; the claim is about all sizes, names and bit patterns, name collisions and every truncation point.", "anchors": ["momentum/io/motion/mmo_io.cpp: saveMmo, loadMmo, mapMotionToCharacter, getAuxilaryDataFromMotion", "momentum/io/shape/blend_shape_io.cpp: saveBlendShape, loadBlendShape, loadBlendShapeBase", "momentum/io/skeleton/mppca_io.cpp: saveMppca, loadMppca"]}
{"id": "C62", "title": "Sequence objective: joining frames, error, gradient and Jacobian", "statement": "A sequence solver function optimises one joined vector that holds the enabled per-frame parameters of every frame and one value of every enabled universal parameter. Setting a joined vector gives each frame the entries that stand for its parameters, gives a universal parameter the same value in all frames, leaves disabled parameters alone, and reading the joined vector returns what was set. The error is the sum of all per-frame and sequence error functions of positive weight; the gradient is the derivative of this error in every entry of the joined vector, and the Jacobian written into fresh matrices has the derivatives of a residual whose squared length is the error, provided every single error function has these properties. Error functions added to all frames reach every frame from which on there are enough frames.", "quantifier": "every number of frames and parameters, every choice of universal and enabled parameters, every list of error functions, every joined vector", "why_tests_cant": "Tests try a few sequences; index arithmetic that mixes up frames, universal columns overwritten rather than summed, and matrices reused between calls show only for particular combinations of universal parameters and sequence terms.", "anchors": ["momentum/character_sequence_solver/sequence_solver_function.cpp:SequenceSolverFunctionT::getError,getGradient,getJacobian,updateParameterSets,setJoinedParameterVector,getJoinedParameterVector,addErrorFunction,addSequenceErrorFunction", "momentum/character_sequence_solver/sequence_error_function.h:SequenceErrorFunctionT"]}
{"id": "C63", "title": "Smoothness terms of a sequence", "statement": "The state sequence error function compares position and rotation of every joint in two consecutive frames, the model parameters sequence error function compares the parameters. Each reports with its gradient the error that getError gives; the gradient, laid out frame after frame, is the derivative of that error in every direction of enabled parameters of the two frames. For non-negative weights the Jacobian is the derivative of residuals whose squares add up to the error, and it fits the announced number of rows (for the state function it fills it). Together with the sequence objective this makes the gradient of a whole clip with smoothness terms its derivative.", "quantifier": "all skeletons, parameter transforms, enabled sets, weights, pairs of frames and directions", "why_tests_cant": "A derivative in a direction that moves both frames is a statement about a continuum of clips; tests compare single frames numerically, mostly at identical or random poses of one small character.", "anchors": ["momentum/character_sequence_solver/state_sequence_error_function.cpp: getError, getGradient, getJacobian, getJacobianSize", "momentum/character_sequence_solver/model_parameters_sequence_error_function.cpp: getError, getGradient, getJacobian, getJacobianSize"]}
{"id": "C64", "title": "Multithreaded sequence solving equals serial solving", "statement": "For every way the threads of the multithreaded sequence solver can be interleaved (including try-locks that fail for no reason) the pass over the frames ends, never deadlocks, and leaves the banded QR solver and the error sum exactly as the serial pass does: every frame's own part is folded in once, the part of the universal parameters is folded in in the order of the frames, and the errors are added in that order, so results do not depend on the schedule, not even by rounding.", "quantifier": "all sequences, all partitions of the frames into tasks, all schedules of the tasks, all numbers of per-frame and universal parameters", "why_tests_cant": "a test sees a handful of the schedules; a race that loses or reorders a frame shows once in a million runs", "anchors": ["momentum/character_sequence_solver/sequence_solver.cpp: processErrorFunctions_parallel, processPerFrameErrors_parallel, processPerFrameErrors_serial", "momentum/math/online_householder_qr.cpp: OnlineBandedHouseholderQR::zeroBandedPart, addMutating"]}
{"id": "C65", "title": "An iteration of the sequence solver takes the damped least squares step of the whole sequence", "statement": "For a sequence with at least one per-frame parameter, an iteration of the sequence solver subtracts from the joined parameter vector the only minimiser of \u03c1|d|\u00b2 + |J d - r|\u00b2, where J and r are the Jacobian and residual of the whole sequence as its getJacobian reports them, and reports the error before the step; the parameters of the frames afterwards are those of the new vector. With line search the step is halved at most nine times, the longest step that passes the sufficient decrease test being taken. The number of threads and their schedule make no difference.", "quantifier": "all sequences, all per-frame and sequence error functions whose Jacobians fit into the rows announced, all splits into per-frame and universal parameters, all regularisations that determine the step, all thread schedules", "why_tests_cant": "the assembly by frames with shifted and merged columns can be wrong for particular window lengths or mixes of universal and per-frame parameters; a test tries few", "anchors": ["momentum/character_sequence_solver/sequence_solver.cpp: doIteration, initializeSolver, computePerFrameJacobian, computeSequenceJacobian, processPerFrameErrors_serial, processSequenceErrors_serial"]}
{"id": "C66", "title": "Solving several poses with universal parameters is one least squares problem in the joined parameters", "statement": "For poses that share the universal parameters: every parameter of every pose has exactly one entry of the joined vector, poses share entries only for universal parameters, setting the joined vector and reading it back gives the same vector, and the sets of universal and universal locator parameters have exactly their entries. The error of the joined vector is the sum over poses and weighted error functions, its gradient and Jacobian are the derivatives with respect to the joined vector, and an iteration of the multipose solver subtracts the only minimiser of \u03c1|d|\u00b2 + |J d - r|\u00b2 for the Jacobian and residual of all poses. The entries of enabled parameters are among the first actual parameters.", "quantifier": "all numbers of poses and parameters, all splits into universal and generic parameters, all error functions that report their own derivatives, all joined vectors, all regularisations that determine the step", "why_tests_cant": "the placement of columns depends on the mix of universal and generic parameters and on which poses have error functions; a test tries few", "anchors": ["momentum/character_sequence_solver/multipose_solver_function.cpp: MultiposeSolverFunctionT, setEnabledParameters, getJoinedParameterVector, setJoinedParameterVector, getUniversalParameterSet, getUniversalLocatorParameterSet, getError, getGradient, getJacobian", "momentum/character_sequence_solver/multipose_solver.cpp: doIteration"]}
{"id": "C67", "title": "The collision error function sees every watched overlap once, whatever was evaluated before", "statement": "The constructor returns for every skeleton in which the joints with capsules hang on one root. After any sequence of configurations and evaluations, for any pose: the number of Jacobian rows announced is the number of pairs of capsules that are not on the same or neighbouring joints and do not overlap in the rest pose; the list of collision pairs contains exactly the watched pairs that overlap, each once; the error is the weighted sum of the squares of the depths of these pairs, the same from all three evaluations; the rows filled are no more than announced, their squared residuals add up to the error, no other row is touched, and the transposed Jacobian times the residual is the gradient. For capsules of constant radius in general position the depths are the true depths, and the gradient is their derivative with respect to every enabled parameter that does not scale a joint.", "quantifier": "all skeletons, capsules, poses, weights and enabled parameters, all histories of evaluations of the object", "why_tests_cant": "the broad phase is rebuilt at every evaluation and reorders the pairs; which pairs meet and where the closest points lie depends on the pose", "anchors": ["momentum/character_solver/collision_error_function.cpp: CollisionErrorFunctionT, updateCollisionPairs, computeBroadPhase, getError, getCollisionPairs, getGradient, getJacobian", "momentum/character/collision_geometry_state.cpp: update", "axel/axel/Bvh.cpp: setBoundingBoxes, traverseOverlappingPairs"]}
{"id": "C68", "title": "The vertex error function measures the posed mesh and its gradient is the derivative", "statement": "After any sequence of constructions, constraints, configurations and evaluations, and for every schedule of the threads that skin the mesh: the error is the weighted sum, over the constraints, of the squared distance from the posed vertex (blend shape, face expression, then skinning) to the target, or of its part along the target normal, the vertex normal or the mean of both. Evaluations leave no trace: the same call returns the same. For position and plane constraints the gradient is the derivative of the error in every enabled parameter, be it of a joint, of the blend shape or of the face expression; the Jacobian is the derivative of the residuals, whose squares add up to the error, and exactly the announced number of rows is filled. For constraints along vertex normals the same holds for rigidly skinned vertices without shapes.", "quantifier": "all characters whose parts fit together, poses, parameters, constraints, weights, histories of calls and thread schedules", "why_tests_cant": "the gradient runs up the parents of several bones in an order decided by a sort and accumulates the weights on the way; the meshes are kept between calls; errors along vertex normals only show for blended or shaped vertices", "anchors": ["momentum/character_solver/vertex_error_function.cpp: VertexErrorFunctionT, SkinningWeightIteratorT, updateMeshes, getError, calculatePositionGradient, calculatePositionJacobian, calculateNormalGradient, calculateNormalJacobian, getGradient, getJacobian, getJacobianSize", "momentum/character_solver/vertex_error_function.h: VertexConstraintT, VertexConstraintType"]}
{"id": "C69", "title": "Constraints added to the SIMD stores by many threads are all there, once", "statement": "However calls of addConstraint from any number of threads interleave, for joints of the skeleton: no call writes outside the store, no two calls write to the same number, and when all have returned every joint's arrays hold the constraints it had before followed by those of the calls, each once and whole, up to 4096 for the joint; every other entry has weight zero. The result of a call says whether its constraint was stored, and it was unless the joint is full. After clearConstraints the store is as if new. The position and plane versions are wait-free; a call of the normal version returns once it is left alone.", "quantifier": "all numbers of threads and calls, all interleavings of their atomic operations and assignments, spurious failures of compare_exchange_weak, and all histories of such phases and clearings", "why_tests_cant": "lost or torn entries and counters left off by one show only for particular interleavings, most of all around the 4096th constraint", "anchors": ["momentum/character_solver/simd_position_error_function.cpp: SimdPositionConstraints, addConstraint, clearConstraints", "momentum/character_solver/simd_plane_error_function.cpp: SimdPlaneConstraints", "momentum/character_solver/simd_normal_error_function.cpp: SimdNormalConstraints"]}
{"id": "C70", "title": "The SIMD error functions compute the error, Jacobian and gradient of their constraints, in packets and in parallel", "statement": "For the constraints held in a SIMD store, getError of the position, plane and normal error functions (packet and AVX versions) is the weighted sum over all constraints of the squared distance to the target, to the plane, or along the normal, whatever the packet size. getJacobian writes, in the rows announced by getJacobianSize and nowhere else, residuals whose squares add up to that error and their derivatives with respect to every enabled model parameter, however the threads that fill it in are scheduled. getGradient returns the derivative of the error.", "quantifier": "all skeletons, parameter transforms, parameter vectors, constraint stores, packet sizes dividing 4096, weights and schedules of the threads", "why_tests_cant": "the lanes of the last packet, the rows between blocks and races between threads matter only for particular numbers of constraints, block positions and interleavings; a derivative is a limit", "anchors": ["momentum/character_solver/simd_position_error_function.cpp: SimdPositionErrorFunction, SimdPositionErrorFunctionAVX", "momentum/character_solver/simd_plane_error_function.cpp: SimdPlaneErrorFunction, SimdPlaneErrorFunctionAVX", "momentum/character_solver/simd_normal_error_function.cpp: SimdNormalErrorFunction, SimdNormalErrorFunctionAVX", "momentum/simd/simd.h: computeOffset"]}
{"id": "C71", "title": "The gradients that pymomentum returns for skeleton states and attached points are the derivatives of the forward functions", "statement": "The backward pass of joint_parameters_to_skeleton_state (and of the local version) returns, for each joint parameter, the derivative of the weighted sum of the forward outputs, the weights being the incoming gradient. The backward pass of joint_parameters_to_positions does so for each joint parameter and for the offset of each point.", "quantifier": "all valid skeletons with unit pre-rotations, joint parameter vectors, lists of points, and incoming gradients", "why_tests_cant": "a derivative is a limit, and the backward pass walks a different chain of joints for every output; a gradient check samples a few poses and directions", "anchors": ["pymomentum/tensor_momentum/tensor_skeleton_state.cpp: computeLocalTransform, computeSkelStateBackward, computeLocalSkelStateBackward, JointParametersToSkeletonStateFunction, JointParametersToLocalSkeletonStateFunction", "pymomentum/tensor_momentum/tensor_joint_parameters_to_positions.cpp: jointParametersToPositions, d_jointParametersToPositions"]}
{"id": "C72", "title": "The gradients that pymomentum returns for skinning, blend shapes and parameter transforms are the derivatives of the forward functions", "statement": "The backward passes of skin_points, apply_blend_shape_coefficients, apply_parameter_transform and apply_inverse_parameter_transform return the derivatives of the weighted sum of the forward outputs with respect to each input (transforms, rest points, coefficients, model parameters, joint parameters), the weights being the incoming gradient.", "quantifier": "all skins, meshes, transforms, rest points, blend shapes, coefficients, parameter transforms, QR factorisations and incoming gradients", "why_tests_cant": "the gradient must be right for every sparsity pattern and every column ordering chosen by the factorisation; a gradient check with one character samples one of each", "anchors": ["pymomentum/tensor_momentum/tensor_skinning.cpp: SkinPointsFunction", "pymomentum/tensor_momentum/tensor_blend_shape.cpp: ApplyBlendShapeCoefficientsFunction", "pymomentum/tensor_momentum/tensor_parameter_transform.cpp: ApplyParameterTransformFunction, ApplyInverseParameterTransformFunction", "momentum/character/inverse_parameter_transform.cpp: apply"]}
{"id": "C73", "title": "An ellipsoid limit pulls a point to the surface of its ellipsoid, and its gradient and Jacobian are derivatives of its error", "statement": "The error of ellipsoid limits is never negative and is zero exactly when each limited point lies on the surface of its ellipsoid; the gradient is the derivative of the error with respect to each enabled model parameter, and the Jacobian and residual reproduce the error and the gradient.", "quantifier": "all skeletons, parameter transforms, sets of ellipsoid limits (any ellipsoid, joint it is attached to, offset and weight), poses and parameters", "why_tests_cant": "the derivative must hold for every ellipsoid shape and for every position of the two joints in the hierarchy; the unit test uses one limit and a random pose with a large tolerance", "anchors": ["momentum/character_solver/limit_error_function.cpp: getError, getGradient, getJacobian, case Ellipsoid"]}
{"id": "C74", "title": "Moving poses by a transform moves the character rigidly and keeps its pose", "statement": "Transforming a sequence of poses returns one pose for each pose given; parameters other than those that place the character in the world are unchanged, joints keep their place relative to the joint that carries the placement, and the character as a whole is moved by the given rotation and translation.", "quantifier": "all characters, parameter transforms, sequences of poses, transforms, previous poses, solver results and random numbers", "why_tests_cant": "the result must hold whatever the inner solver returns and however often it is restarted from random values; the unit test compares one character in a few random poses", "anchors": ["momentum/character_solver/transform_pose.cpp: createRigidBodySkeleton, PoseTransformSolverT::transformPose, transformPose", "momentum/character/parameter_transform.cpp: getRigidParameters", "momentum/character/character.cpp: parametersToActiveJoints, activeJointsToParameters"]}
{"id": "C75", "title": "Making locators movable and reading them back keeps the character and loses nothing", "statement": "The character built for locator calibration has one extra parameter for each axis along which a locator may move and no others; in every pose its original joints are where they were, its locators are at their offsets moved by those parameters, locked axes never move, the extra limits measure the distance from the wanted offset, and reading the locators back gives exactly the moved locators, the originals if nothing was moved. Markers computed from a motion become constraints that this motion meets.", "quantifier": "all valid characters, locators with any locks, limits and parents, all poses and all motions", "why_tests_cant": "the calibration round trip must hold for every skeleton and every combination of locks; the unit tests build one test character", "anchors": ["momentum/marker_tracking/tracker_utils.cpp: createLocatorCharacter, extractLocatorsFromCharacter, extractIdAndLocatorsFromParams, createConstraintData, extractMarkersFromMotion, fillIdentity, removeIdentity, extractParameters", "momentum/character/parameter_transform.cpp: getScalingParameters"]}
{"id": "C76", "title": "Collisions of moving vertices, edges and triangles are found, and those found are real", "statement": "For points in uniform motion, the times reported by timesCoplanar are those at which four points lie in one plane; solveP3 reports every real root of a cubic and nothing that is not within 1e-14 of being a real root, solveP2 the real roots of a quadratic. A collision reported by ccdVertexTriangle or ccdEdgeEdge takes place within the step, and a vertex that passes through the inside of a triangle, or edges that meet, are reported.", "quantifier": "all positions, velocities, step lengths and thresholds; both code paths for the coefficients", "why_tests_cant": "roots and hits depend on all 24 coordinates; the unit tests try a few constructed collisions and cannot show that none is missed", "anchors": ["axel/axel/math/CoplanarityCheck.cpp: solveP3, solveP2, timesCoplanar", "axel/axel/math/ContinuousCollisionDetection.cpp: ccdEdgeEdge, ccdVertexTriangle", "axel/axel/math/EdgeEdgeDistance.cpp: distanceEdgeEdge"]}
{"id": "C77", "title": "Tensor quaternions are rotations: products, inverses, Euler angles, matrices and blends", "statement": "The quaternion functions on tensors of rows x, y, z, w: products are Hamilton products, the inverse is two-sided for every row but zero, rotating a vector is multiplying it with the rotation matrix and, for unit quaternions, q v q*. Euler angles give the rotation about x, then y, then z, the backward pass returns the derivative for each angle, and angles and quaternions convert back and forth. For every rotation matrix and whichever eigenvectors the solver returns, the quaternion has length one, a scalar that is not negative and that matrix. A blend of weighted quaternions has length one, no unit quaternion agrees better with them, and it does not depend on their signs, their order or the scale of the weights.", "quantifier": "all rows, vectors, angles and rotation matrices; all numbers of quaternions and weights, negative ones included; all outcomes of the eigenvalue solvers that meet their contracts", "why_tests_cant": "the tests compare a few random quaternions; half turns, ties of eigenvalues, signs of eigenvectors and gimbal lock have to hold for every rotation", "anchors": ["pymomentum/tensor_momentum/tensor_quaternion.cpp: quaternionMultiply, quaternionNormalize, quaternionConjugate, quaternionInverse, quaternionToXYZEuler, quaternionRotateVector, xyzEulerToQuaternion, XYZEulerToQuaternionFunction, quaternionToRotationMatrix, rotationMatrixToQuaternion, checkAndNormalizeWeights, blendQuaternions"]}
{"id": "C78", "title": "Tensor skeleton states compose, invert and blend like the transforms they stand for, for all leading dimensions", "statement": "A row of eight numbers stands for a transform. Multiplying rows is composing the transforms, transforming points applies them, the 4x4 matrices multiply accordingly, and the inverse is two-sided for unit rotations and a scale that is not zero. A blend averages translations and scales with the normalised weights and blends the rotations; equal states blend to themselves. For tensors, an operation is defined exactly if the left tensor can be repeated to the dimensions of the right one, and then every entry is that of the corresponding rows.", "quantifier": "all rows, points, weights, numbers of states and dimensions of the tensors", "why_tests_cant": "the tests try a few shapes and random states; repetition of dimensions and the group laws have to hold for all of them", "anchors": ["pymomentum/tensor_momentum/tensor_transforms.cpp: multiplySkeletonStates, transformPointsWithSkeletonState, inverseSkeletonStates, skeletonStateToTransforms, quaternionToSkeletonState, translationToSkeletonState, scaleToSkeletonState, identitySkeletonState, blendSkeletonStates, matchLeadingDimensions"]}
{"id": "C79", "title": "Fully differentiable error functions: the reported derivative of the gradient in an input is the derivative of the gradient", "statement": "Position, orientation, state and motion error functions expose their weights, offsets and targets as named inputs. For every pose, every vector and every input, the derivative of the product of the gradient with the vector, in each component of the input, is what the error function reports. Unknown names and values of the wrong size are refused, setting an input to its value changes nothing, and setting one input leaves the others alone.", "quantifier": "all skeletons, parameter transforms, constraints, poses, vectors and inputs", "why_tests_cant": "tests compare with finite differences for one character and a few constraints; implicit differentiation of the solver rests on exactness in every case", "anchors": ["momentum/diff_ik/fully_differentiable_position_error_function.cpp", "momentum/diff_ik/fully_differentiable_orientation_error_function.cpp", "momentum/diff_ik/fully_differentiable_state_error_function.cpp", "momentum/diff_ik/fully_differentiable_motion_error_function.cpp: getGradient, getInput, setInput, d_gradient_d_input_dot"]}
{"id": "C80", "title": "A union of error functions is the weighted sum of its members, and exposes their inputs one after the other", "statement": "The error of a union is its weight times the sum of the errors of its members; its Jacobian and its gradient are the derivatives of that, if those of the members are. Its inputs are those of the members, each name once; a value is the concatenation of the values of the members that have the input; setting it hands each member its piece and leaves the other inputs alone; and the reported derivative of the gradient in an input is the derivative of the gradient of the union. In a solver the gradients of all error functions add up.", "quantifier": "all lists of members, weights, poses, names, values and vectors", "why_tests_cant": "a test has two members of one kind; the index of names, the pieces and the scaling have to be right for every list and every mixture", "anchors": ["momentum/diff_ik/union_error_function.cpp: UnionErrorFunctionT, getError, getGradient, getJacobian, getJacobianSize, inputs, getInputSize, getInputImp, setInputImp, d_gradient_d_input_dot", "momentum/character_solver/skeleton_solver_function.cpp: getGradient"]}
{"id": "C81", "title": "The derivatives of a solved pose are the derivatives of the solution", "statement": "Given a pose that minimises the solver's error in the active parameters, and the derivative of a loss in the model parameters, the returned derivatives are those of the loss in the weight and in every component of every input of every error function, when the solution follows the change; parameters that are not active stay. They do not depend on the singular value decomposition that is found; directions in which the pose is not determined are left out. The returned gradient size is the root mean square of the derivative of the error in the active parameters.", "quantifier": "all lists of error functions, active sets, poses, losses, inputs and weights; all singular value decompositions", "why_tests_cant": "a finite-difference test checks one problem within a tolerance; the implicit function theorem, the subset bookkeeping and the approximation of the Hessian are claims about every problem", "anchors": ["momentum/diff_ik/fully_differentiable_body_ik.cpp: computeSubsetParameterIndices, extractSubsetVec, extractSubsetMat, subsetVecToFullVec, hessianInverseTimes, d_modelParams_d_inputs"]}
{"id": "C82", "title": "The collision error function with stored pairs", "statement": "The collision error function that stores the pairs of capsules it compares (the stateless one) compares exactly the pairs that do not overlap at rest and whose bodies can move against each other, whatever poses were evaluated before: the reported pairs, the error, the gradient and the Jacobian depend on the pose alone. Its error is the weighted sum of the squared overlaps; its Jacobian has one row per overlapping pair, each row twice the derivative of the residual; its gradient is the derivative of the error for parameters that do not scale joints. It returns the same error, gradient and size as the collision error function with a bounding volume hierarchy.", "quantifier": "all skeletons, capsules, poses, weights, enabled sets and histories of earlier evaluations", "why_tests_cant": "a test compares both implementations on a few poses; the set of pairs, the independence of earlier poses and the derivative are claims about every skeleton and history", "anchors": ["momentum/character_solver/collision_error_function_stateless.cpp: CollisionErrorFunctionStatelessT::updateCollisionPairs, computeBroadPhase, getCollisionPairs, getError, getGradient, getJacobian, getJacobianSize"]}
{"id": "C83", "title": "The collision error function with SIMD packets", "statement": "The collision error function that processes candidate pairs in SIMD packets has, whatever poses were evaluated before and whatever the width of the packets, as its error the weighted sum over the watched pairs of capsules, each pair once, of the squared overlap at a closest pair of points of the axes; the closest points are exact for all axes, also parallel, crossing and degenerate ones. The evaluations of error, gradient and Jacobian agree on the error, the squared residuals add up to it, no more rows are filled than announced, and in general position error and gradient are those of the collision error function without packets.", "quantifier": "all skeletons, capsules, poses, weights, enabled sets, widths of the packets and histories of earlier evaluations", "why_tests_cant": "a test compares both implementations on a few poses for the packet width of one machine; the claim is about every pose, every number of candidates left over in the last packet, every width and every history", "anchors": ["momentum/character_solver/simd_collision_error_function.cpp: closestPointOnTwoSegments, SimdCollisionErrorFunctionT::updateCollisionPairs, computeBroadPhase, getError, getGradient, getJacobian, getJacobianSize", "momentum/character_solver/simd_collision_error_function.h: SimdCollisionErrorFunctionT"]}
{"id": "C84", "title": "Parameter limits written as text are read back", "statement": "Writing a list of parameter limits as text and reading the text gives back the same limits in the same order, with names resolved to the same parameters and joints. Whatever text is read without an error: all limits refer to existing parameters and joints, half planes have unit normals, and the pieces of a linear limit in one line follow one another without gaps and without jumps larger than 1/1000. Comments and lines that are no limits do not matter, and texts put together are read one after the other.", "quantifier": "all lists of limits, texts, skeletons and parameter transforms, and all ways of printing and reading numbers", "why_tests_cant": "a test writes and reads one list of limits; the claim is about every list, every name, every order of pieces and every text", "anchors": ["momentum/io/skeleton/parameter_limits_io.cpp: Tokenizer, parseMinmax, parseMinmaxPassive, parseLinear, parseHalfPlane, parseEllipsoid, parseParameterLimits, writeParameterLimits"]}
{"id": "C85", "title": "A text of parameter definitions means what it says", "statement": "Reading a text with definitions `joint.channel = weight*parameter + weight*joint.channel + constant` gives a parameter transform for which, for all values of the model parameters, every defined joint parameter equals the sum on the right side of its definition, where references stand for the joint parameters they name, and all others are zero. The model parameters are the names in the text in the order of first appearance, without repetition, and exactly the defined joint parameters are active. Blanks, comments and lines for limits, sets and constraints do not matter. Definitions of unknown joints and parameters named like a joint are errors. Parameter sets hold exactly the named parameters, pose constraints exactly the written values in order, and the last line with a key counts.", "quantifier": "all texts in the format, all skeletons, all values of the parameters and all ways of reading a number", "why_tests_cant": "a test reads one model file and compares a few entries of the matrix; the claim is about every text, every order of definitions and every chain of references", "anchors": ["momentum/io/skeleton/parameter_transform_io.cpp: parseParameterTransform, parseParameter, parseParameterSets, parsePoseConstraints", "momentum/common/string.cpp: trim, tokenize"]}
{"id": "C86", "title": "Locator files keep the locators", "statement": "Saving locators to the text format, in joint space or in world space, and loading the file with the same skeleton gives the same locators in the same order: name, joint, offset, locks, weight and limit weights, with the origin of the limit at the offset. A file with repeated locator names is rejected. Names with colons, unnamed locators and joint numbers outside the skeleton are handled as stated.", "quantifier": "every well-formed skeleton with unit pre-rotations and different joint names, every list of locators whose names stay on one line and whose numbers are printed faithfully; every text for the claims about loading", "why_tests_cant": "the text of names and numbers is unbounded, and the losses (a namespace in a joint name, two unnamed locators) only show for names that the test files do not contain", "anchors": ["momentum/io/skeleton/locator_io.cpp:saveLocators", "momentum/io/skeleton/locator_io.cpp:loadLocatorsFromBuffer", "momentum/common/string.cpp:tokenize"]}
{"id": "C87", "title": "Model files are read with every kind of line end", "statement": "A model file is read into its sections: each name has the text of the last section with that name, without comments, blanks around lines and empty lines, and the text does not depend on whether lines end with \\n, \\r\\n or \\r. A definition file is read into the text of its lines after the first. A file with another first line has no sections. Reading ends on every file and sees every line.", "quantifier": "every text, every list of lines and sections, every mix of line ends", "why_tests_cant": "the losses depend on the last character of the file; a test that writes its own input always has the same line end", "anchors": ["momentum/io/common/stream_utils.cpp:GetLineCrossPlatform", "momentum/io/skeleton/parameter_transform_io.cpp:loadMomentumModelCommon", "momentum/io/skeleton/parameter_transform_io.cpp:loadModelDefinitionFromStream"]}
{"id": "C88", "title": "Marker files are read as they say", "statement": "The change from the coordinates of a marker file is linear, a rotation times the number of centimetres of the unit. A TRC file gives its rate and one frame per row with the right number of fields; every frame has all markers in the order of the names, a marker is occluded exactly when a coordinate is missing, and is otherwise at its coordinates in the unit of the file. Files with another type, other columns or another number of names give no frames and a rate of 0. The documented target has y up.", "quantifier": "every vector, up vector and unit; every file text that has such a header and rows, with every mix of line ends, every way of reading numbers", "why_tests_cant": "the test files have one unit and end with a line end; the unit of the header has no effect on the result, which only files in another unit than centimetres show", "anchors": ["momentum/io/marker/conversions.cpp:toMomentumVector3", "momentum/io/marker/conversions.cpp:toUnit", "momentum/io/marker/trc_io.cpp:loadTrc"]}
{"id": "C89", "title": "Polygons are cut into triangles with the same boundary", "statement": "The check of polygon arrays accepts exactly the arrays that describe polygons with three or more vertices of the mesh. What passes is cut into triangles without an error; all triangles have vertices of the mesh, there are two fewer per polygon than vertices, each has the first vertex and two successive vertices of its polygon in order, and the boundaries of the triangles add up to the boundaries of the polygons. A polygon with fewer vertices is rejected by both. Polygons written in an FBX file are read back.", "quantifier": "every list of polygons of every size (arrays below 2^32 entries), every function on directed edges that changes sign with the direction", "why_tests_cant": "the arrays are of unbounded size and unsigned differences wrap around; tests triangulate a few fixed meshes", "anchors": ["momentum/io/openfbx/polygon_data.cpp:triangulate", "momentum/io/openfbx/polygon_data.cpp:PolygonData::errorMessage", "momentum/io/openfbx/openfbx_io.cpp:parseSkinnedModel"]}
{"id": "C90", "title": "C3D subjects, their markers, and the main subject", "statement": "Loading a C3D file gives, in whatever order the table of subjects is listed, one sequence for each subject that a label names, and no other; each has as many frames as the file says, and in each frame one marker for each point of the subject that is not stray, in file order, with the name of the label without the subject. A marker shows its point, turned and scaled, exactly when the point has coordinates that are not all zero and a residual that is not negative; otherwise it is hidden at its last place. A file in which nothing is seen, or with a bad unit, or too few labels, gives no subjects. The main subject is the first of those with a proper name that show the most markers in a frame, and -1 exactly when there is none.", "quantifier": "every number of points, frames and labels, every label text, every listing order of the subjects, all coordinates, residuals and missing values, every list of sequences", "why_tests_cant": "the order of a hash table differs between libraries, and labels, gaps and numbers of points are unbounded; tests load a few files", "anchors": ["momentum/io/marker/c3d_io.cpp:loadC3d", "momentum/io/marker/c3d_io.cpp:findSubjectName", "momentum/io/marker/marker_io.cpp:findMainSubjectIndex"]}
{"id": "C91", "title": "Frames of a tracked motion", "statement": "Tracking markers frame by frame gives a motion with a column for each frame, all of them written, and all frames of a stride have the column of its first frame. Parameters that are neither rigid nor pose parameters outside the locators keep the given values in all frames. The first frame of a stride starts from the stride before, or from the given pose for the first frame and for strides of five and more; with too few visible markers it stays there, and otherwise it is solved with the visible markers of this frame alone, after a rigid solve exactly when the stride is five or more, or the given root is zero and no frame was solved yet. A column does not depend on later frames, and for strides of five and more depends on its own frame only. Tracking a sequence solves one frame per stride, starts each from the given motion, keeps parameters that are not solved for, and gives universal parameters one value for all frames. A part of the frames has as many columns as wanted or as there are. A calibration solves between the wanted number of frames and twice as many.", "quantifier": "every solver, every number of frames, markers and parameters, every stride, all marker data with any visibility, all sets of parameters, every first frame and number of frames", "why_tests_cant": "the solver, the visibility of markers and the number of frames are unbounded, and the state is carried from frame to frame; tests track one motion", "anchors": ["momentum/marker_tracking/marker_tracker.cpp:trackPosesPerframe", "momentum/marker_tracking/marker_tracker.cpp:trackSequence", "momentum/marker_tracking/marker_tracker.cpp:calibrateModel", "momentum/marker_tracking/process_markers.cpp:processMarkers"]}
{"id": "C92", "title": "Arrays and marker sequences in glTF files are read back as they were stored, and reading stays inside the file's buffers", "statement": "Whatever document typed arrays are stored into, each is read back bit for bit and in order, with or without alignment, and every array stored before still reads the same, while the buffer stays below 4 GB; with alignment every element starts at a multiple of four bytes; reading an accessor never leaves its buffer. A marker sequence saved and loaded at the same frame rate has in every frame exactly the visible markers at their positions.", "quantifier": "every document, every history of stored arrays of every supported element type, every accessor and view of a file, every marker sequence with any visibility and any repeated names, every positive frame rate", "why_tests_cant": "Tests save and load one character or one take made by the library itself; they reach neither every history of arrays and alignments nor the accessors of files made by others, nor sequences with hidden markers in any pattern.", "anchors": ["momentum/io/gltf/utils/accessor_utils.h: copyAccessorBuffer, createAccessorBuffer, setAccessorType, getComponentSize, getTypeSize", "momentum/io/gltf/gltf_builder.cpp: addActorAnimationToModel", "momentum/io/gltf/gltf_io.cpp: loadMarkerSequence", "momentum/io/gltf/utils/coordinate_utils.h: fromMomentumVec3f, toMomentumVec3f"]}
{"id": "C93", "title": "Loading the hierarchy of any glTF file gives a skeleton whose joints come after their parents, and a saved skeleton is found again", "statement": "Whatever nodes a glTF file has, if its hierarchy is loaded without an error then every joint comes after its parent, the parent is the nearest joint above it in the file, every capsule and locator hangs on the nearest joint above, the map from nodes leads to the right objects, and no joint below the root is left out; loading ends for files without cycles and a tree gives no joint twice; indices outside the file are refused. A saved skeleton is loaded with the same joints and parents.", "quantifier": "every list of nodes with any children, types, meshes, skins and cameras, every list of roots, with or without the extension; every skeleton in which parents come first", "why_tests_cant": "Tests load a few sample characters whose joints are listed depth first under one root; malformed, cyclic or differently ordered hierarchies are never tried.", "anchors": ["momentum/io/gltf/gltf_io.cpp: loadHierarchyRecursive, loadHierarchy, isHierarchyNode", "momentum/io/gltf/gltf_builder.cpp: addSkeletonToModel"]}
{"id": "C94", "title": "Reading an FBX file from memory gives the bytes of the buffer in order and never leaves it", "statement": "Whatever calls the FBX reader makes on the memory stream, in any order, each read gives exactly the bytes of the buffer at the current position or, if there are not enough, nothing and an error; reads one after another give the start of the file without gaps or repeats; no call touches memory outside of the buffer; the error tells whether a call has failed since it was cleared.", "quantifier": "every buffer, every history of opening, closing, reading, writing, seeking from either end, setting the position and clearing the error, with either version of the FBX SDK", "why_tests_cant": "Tests load a few well-formed files through the SDK, which seeks only where such files lead it; the positions that a malformed file leads to are never tried.", "anchors": ["momentum/io/fbx/fbx_memory_stream.cpp: FbxMemoryStream::Read, Seek, SetPosition, Open, Close, Write, GetError, ClearError", "momentum/io/fbx/fbx_memory_stream.h: FbxMemoryStream"]}
{"id": "C95", "title": "Loading a skinned glTF file finds a skeleton that has all the joints of its skins", "statement": "Loading a glTF file with skinned meshes starts from nodes such that every joint of every skin is at or below one of them, each such node has a joint of a skin at or below it, joints in one tree have one such node, which is their closest common ancestor, and finding them comes to an end.", "quantifier": "every list of nodes, every scene, every number of skins and of joints in them, in any order", "why_tests_cant": "Tests load a few files, nearly all with one skin whose joints are one connected tree; the merging of joints and of skins depends on the shape of the hierarchy and the order of the joints.", "anchors": ["momentum/io/gltf/gltf_io.cpp: gatherSkeletonRoots, findClosestCommonAncestor, getAncestorsIncludingSelf, loadHierarchy"]}
{"id": "C96", "title": "The pose-dependent shape of a character depends on its pose alone", "statement": "The shape computed for a pose is the base shape plus the linear function of the rotations of its joints relative to the base joint that the shape defines; it does not change if the character as a whole is turned, is the base shape if there are no weights, and is the same for states that turn everything in the same way; for shapes that do not fit the skeleton there is no result.", "quantifier": "every shape with any number of joints and vertices, every skeleton and every state of it, every rotation of the whole character", "why_tests_cant": "No test computes a pose shape; invariance holds or fails over a continuum of rotations and for all numbers of joints.", "anchors": ["momentum/character/pose_shape.cpp: PoseShape::compute", "momentum/character/pose_shape.h: PoseShape", "momentum/character/character_state.cpp: CharacterState::set"]}
{"id": "C97", "title": "A block of aligned memory has room for the elements it was asked for", "statement": "Memory asked for some number of elements has at least their bytes, in a multiple of the alignment and less than one alignment more, or there is an error: never a smaller block.", "quantifier": "every number of elements, every size of an element, every alignment, whatever blocks the system has", "why_tests_cant": "Tests ask for a few small blocks; overflow of the rounding occurs for sizes that no test can allocate.", "anchors": ["momentum/common/aligned.h: alignedAlloc, roundUpToAlignment, AlignedAllocator::allocate, makeAlignedUnique"]}
{"id": "C98", "title": "Tensors that pass the checks of a function have sizes that belong together", "statement": "Whatever tensors are passed to a function of the Python interface, all those with elements that pass its checks have the same batch size, added where it was missing, the fixed sizes asked for and the same value of every variable size; an error or an empty tensor leaves no trace in the checks that follow; tensors whose sizes do belong together all pass, in any order.", "quantifier": "every sequence of tensors of any dimensions, every list of expected sizes, fixed or variable, with and without batches and empty tensors", "why_tests_cant": "Tests call the functions with a few tensors of matching sizes; which sizes are accepted depends on the whole sequence of tensors before.", "anchors": ["pymomentum/tensor_utility/tensor_utility.cpp: TensorChecker::validateAndFixTensor", "pymomentum/tensor_utility/tensor_utility.h: TensorChecker, isEmpty"]}
{"id": "C99", "title": "Finding the closest points of a tensor gives every source point its closest target point", "statement": "For every source point of every element of the batch, the index and coordinates given are those of a closest target point of the same element within the distance, and it is marked as not valid exactly if there is no such point, whatever the order in which threads take the points.", "quantifier": "every batch size, all numbers of source and target points, every distance, every order of the parallel steps, every number of dimensions that is accepted", "why_tests_cant": "Tests compare a few random clouds in two and three dimensions with a search over all points; the order of the threads is not controlled, and other dimensions are not tried.", "anchors": ["pymomentum/tensor_momentum/tensor_kd_tree.cpp: findClosestPoints, findClosestPoints_imp"]}
{"id": "C100", "title": "A file of a pose-dependent shape is loaded as it is, or refused", "statement": "Loading a pose-dependent shape from a file that holds the names of joints of the character, a mean shape for its vertices and the vectors gives the first joint of each name, the rotation of the base joint, the mean plus the mesh, and the vectors of the file. A file for another number of vertices or with unknown joints is refused, and so is a file that ends too early. A shape that is loaded always fits the character.", "quantifier": "every character, every number of vertices and joints, all names, all numbers, every file of bytes, every point at which a file is cut", "why_tests_cant": "There are no tests of these files; a test would have a few files, and neither every length nor every place of an end.", "anchors": ["momentum/io/shape/pose_shape_io.cpp: loadPoseShape", "momentum/character/pose_shape.h: PoseShape"]}
{"id": "C101", "title": "A binary file of joint parameters is loaded as it is, or refused", "statement": "Loading joint parameters from a binary file of frames gives exactly the frames of the file, whatever follows them. All frames that are loaded have the same number of parameters. A file that does not exist or that ends too early is refused.", "quantifier": "every number of frames and of parameters, all numbers, every file of bytes, every point at which a file is cut", "why_tests_cant": "There are no tests of these files; a test would have a few files, and neither every length nor every place of an end.", "anchors": ["momentum/io/motion/joint_params_binary_io.cpp: loadJointParamsBinary"]}
{"id": "C102", "title": "The loss for packets is the loss of each lane", "statement": "For every parameter of the robust loss, the value and derivative computed for a packet of squared errors are in each lane those of the loss for one number, independent of the other lanes; the derivative is the derivative of the value and positive.", "quantifier": "all shape and scale parameters, all packets of any number of lanes, all squared errors", "why_tests_cant": "Tests compare some losses at random errors; equality for all parameters and errors, and being the derivative, are not settled by samples.", "anchors": ["momentum/math/simd_generalized_loss.cpp: SimdGeneralizedLossT::value, SimdGeneralizedLossT::deriv"]}
