import Verif.Lemmas.BandedQr
import Verif.Lemmas.BinaryIo
import Verif.Lemmas.BlockQr
import Verif.Lemmas.BodyIk
import Verif.Lemmas.BodyIk2
import Verif.Lemmas.BvhBuild
import Verif.Lemmas.BvhClosest
import Verif.Lemmas.BvhComb
import Verif.Lemmas.BvhConst
import Verif.Lemmas.BvhPairs
import Verif.Lemmas.BvhQuery
import Verif.Lemmas.BvhRefit
import Verif.Lemmas.ChainWalk
import Verif.Lemmas.Character
import Verif.Lemmas.Character2
import Verif.Lemmas.Character3
import Verif.Lemmas.CollisionError
import Verif.Lemmas.CollisionError2
import Verif.Lemmas.CollisionError3
import Verif.Lemmas.CollisionError4
import Verif.Lemmas.CollisionError5
import Verif.Lemmas.CollisionStateless
import Verif.Lemmas.CollisionStateless2
import Verif.Lemmas.ConstraintCurve
import Verif.Lemmas.ConstraintCurve2
import Verif.Lemmas.ConstraintError
import Verif.Lemmas.Coplanarity
import Verif.Lemmas.Coplanarity2
import Verif.Lemmas.DiffConstraints
import Verif.Lemmas.DiffConstraints2
import Verif.Lemmas.DiffConstraints3
import Verif.Lemmas.DiffConstraints4
import Verif.Lemmas.EllipsoidLimit
import Verif.Lemmas.EllipsoidLimit2
import Verif.Lemmas.Euler
import Verif.Lemmas.FkDeriv
import Verif.Lemmas.GltfBuffers
import Verif.Lemmas.GltfHierarchy
import Verif.Lemmas.GltfMarkers
import Verif.Lemmas.GltfRoots
import Verif.Lemmas.HouseholderQr
import Verif.Lemmas.JointDeriv
import Verif.Lemmas.KdQuery
import Verif.Lemmas.KdTree
import Verif.Lemmas.Limits
import Verif.Lemmas.LimitsText
import Verif.Lemmas.LimitsText2
import Verif.Lemmas.LimitsText3
import Verif.Lemmas.LimitsText4
import Verif.Lemmas.LineReader
import Verif.Lemmas.LineReader2
import Verif.Lemmas.LineReader3
import Verif.Lemmas.ListOption
import Verif.Lemmas.LocatorText
import Verif.Lemmas.LocatorText2
import Verif.Lemmas.LocatorText3
import Verif.Lemmas.MarkerSubjects
import Verif.Lemmas.MarkerSubjects2
import Verif.Lemmas.MarkerSubjects3
import Verif.Lemmas.MarkerTracker
import Verif.Lemmas.Multipose
import Verif.Lemmas.Multipose2
import Verif.Lemmas.Multipose3
import Verif.Lemmas.ParameterTransform
import Verif.Lemmas.ParameterTransform2
import Verif.Lemmas.ParameterTransform3
import Verif.Lemmas.Polygons
import Verif.Lemmas.PosePrior
import Verif.Lemmas.QrPivot
import Verif.Lemmas.QrRepresents
import Verif.Lemmas.ReplaceHierarchy
import Verif.Lemmas.Rotation
import Verif.Lemmas.SegmentDistance
import Verif.Lemmas.Segments
import Verif.Lemmas.SequenceErrors
import Verif.Lemmas.SequenceFunction
import Verif.Lemmas.SequencePipeline
import Verif.Lemmas.SequencePipeline2
import Verif.Lemmas.SequencePipeline3
import Verif.Lemmas.SequencePipeline4
import Verif.Lemmas.SequenceSolver
import Verif.Lemmas.SequenceSolver2
import Verif.Lemmas.SequenceSolver3
import Verif.Lemmas.SequenceSolver4
import Verif.Lemmas.SimdCollision
import Verif.Lemmas.SimdCollision2
import Verif.Lemmas.SimdCollision3
import Verif.Lemmas.SimdConstraints
import Verif.Lemmas.SimdConstraints2
import Verif.Lemmas.SimdConstraints3
import Verif.Lemmas.SimdError
import Verif.Lemmas.SimdError10
import Verif.Lemmas.SimdError2
import Verif.Lemmas.SimdError3
import Verif.Lemmas.SimdError4
import Verif.Lemmas.SimdError5
import Verif.Lemmas.SimdError6
import Verif.Lemmas.SimdError7
import Verif.Lemmas.SimdError8
import Verif.Lemmas.SimdError9
import Verif.Lemmas.Simplify
import Verif.Lemmas.Skeleton
import Verif.Lemmas.SkeletonState
import Verif.Lemmas.SkinWeights
import Verif.Lemmas.Skinning
import Verif.Lemmas.Slab
import Verif.Lemmas.Solver
import Verif.Lemmas.StateError
import Verif.Lemmas.StateError2
import Verif.Lemmas.TensorLinear
import Verif.Lemmas.TensorQuat
import Verif.Lemmas.TensorState
import Verif.Lemmas.TensorTransform
import Verif.Lemmas.TrackerUtils
import Verif.Lemmas.TrackerUtils2
import Verif.Lemmas.TrackerUtils3
import Verif.Lemmas.TrackerUtils4
import Verif.Lemmas.Transform
import Verif.Lemmas.TransformPose
import Verif.Lemmas.TransformPose2
import Verif.Lemmas.TransformPose3
import Verif.Lemmas.TransformPose4
import Verif.Lemmas.TransformPose5
import Verif.Lemmas.TransformSets
import Verif.Lemmas.TransformText
import Verif.Lemmas.TransformText2
import Verif.Lemmas.TransformText3
import Verif.Lemmas.TransformText4
import Verif.Lemmas.TransformText5
import Verif.Lemmas.TrcText
import Verif.Lemmas.UnionError
import Verif.Lemmas.UnionError2
import Verif.Lemmas.Vec
import Verif.Lemmas.VertexError
import Verif.Lemmas.VertexError2
import Verif.Lemmas.VertexError3
import Verif.Lemmas.VertexError4
import Verif.Lemmas.VertexError5
import Verif.Lemmas.VertexError6
import Verif.Lemmas.VertexError7
import Verif.Lemmas.VertexError8
import Verif.Model.Aligned
import Verif.Model.BandedQr
import Verif.Model.BinaryIo
import Verif.Model.BlockQr
import Verif.Model.BodyIk
import Verif.Model.BoundingBox
import Verif.Model.Bvh
import Verif.Model.Capsule
import Verif.Model.Character
import Verif.Model.CollisionError
import Verif.Model.CollisionStateless
import Verif.Model.ConstraintError
import Verif.Model.Coplanarity
import Verif.Model.Covariance
import Verif.Model.DiffConstraints
import Verif.Model.EllipsoidLimit
import Verif.Model.ErrorBase
import Verif.Model.Euler
import Verif.Model.FbxStream
import Verif.Model.GeneralizedLoss
import Verif.Model.GltfBuffers
import Verif.Model.GltfHierarchy
import Verif.Model.GltfRoots
import Verif.Model.HouseholderQr
import Verif.Model.JointParamsIo
import Verif.Model.KdTree
import Verif.Model.Limits
import Verif.Model.LimitsText
import Verif.Model.LineReader
import Verif.Model.LocatorText
import Verif.Model.MarkerSubjects
import Verif.Model.MarkerTracker
import Verif.Model.Mesh
import Verif.Model.Multipose
import Verif.Model.ParameterTransform
import Verif.Model.Polygons
import Verif.Model.PosePrior
import Verif.Model.PoseShape
import Verif.Model.PoseShapeIo
import Verif.Model.RayTriangle
import Verif.Model.ReplaceHierarchy
import Verif.Model.Segments
import Verif.Model.SequenceErrors
import Verif.Model.SequenceFunction
import Verif.Model.SequencePipeline
import Verif.Model.SequenceSolver
import Verif.Model.SimdCollision
import Verif.Model.SimdConstraints
import Verif.Model.SimdError
import Verif.Model.SimdLoss
import Verif.Model.Simplify
import Verif.Model.Skeleton
import Verif.Model.SkeletonState
import Verif.Model.SkinWeights
import Verif.Model.Skinning
import Verif.Model.Solver
import Verif.Model.StateError
import Verif.Model.TensorCheck
import Verif.Model.TensorClosest
import Verif.Model.TensorLinear
import Verif.Model.TensorQuat
import Verif.Model.TensorState
import Verif.Model.TensorTransform
import Verif.Model.TrackerUtils
import Verif.Model.Transform
import Verif.Model.TransformPose
import Verif.Model.TransformReal
import Verif.Model.TransformText
import Verif.Model.TrcText
import Verif.Model.TriBvh
import Verif.Model.TriangleProjection
import Verif.Model.UnionError
import Verif.Model.Utility
import Verif.Model.Vec
import Verif.Model.VertexError
import Verif.Props.Aligned
import Verif.Props.BandedQr
import Verif.Props.BinaryIo
import Verif.Props.BlockQr
import Verif.Props.BodyIk
import Verif.Props.BodyIk2
import Verif.Props.BodyIk3
import Verif.Props.BoundingBox
import Verif.Props.Bvh
import Verif.Props.Bvh2
import Verif.Props.Capsule
import Verif.Props.Character
import Verif.Props.CollisionError
import Verif.Props.CollisionErrorEx
import Verif.Props.CollisionStateless
import Verif.Props.CollisionStatelessEx
import Verif.Props.ConstraintError
import Verif.Props.ConstraintFunctions
import Verif.Props.Coplanarity
import Verif.Props.CoplanarityEx
import Verif.Props.Covariance
import Verif.Props.DiffConstraints
import Verif.Props.DiffConstraints2
import Verif.Props.DiffConstraints3
import Verif.Props.DiffConstraints4
import Verif.Props.EllipsoidLimit
import Verif.Props.EllipsoidLimitEx
import Verif.Props.Euler
import Verif.Props.FbxStream
import Verif.Props.GaussNewton
import Verif.Props.GeneralizedLoss
import Verif.Props.GltfBuffers
import Verif.Props.GltfHierarchy
import Verif.Props.GltfRoots
import Verif.Props.HouseholderQr
import Verif.Props.JointParamsIo
import Verif.Props.KdTree
import Verif.Props.Limits
import Verif.Props.LimitsText
import Verif.Props.LimitsTextEx
import Verif.Props.LineReader
import Verif.Props.LocatorText
import Verif.Props.LocatorTextEx
import Verif.Props.MarkerSubjects
import Verif.Props.MarkerTracker
import Verif.Props.Mesh
import Verif.Props.MotionIo
import Verif.Props.Multipose
import Verif.Props.MultiposeSolver
import Verif.Props.ParameterTransform
import Verif.Props.ParameterTransform2
import Verif.Props.ParamsError
import Verif.Props.Polygons
import Verif.Props.PosePrior
import Verif.Props.PoseShape
import Verif.Props.PoseShapeIo
import Verif.Props.RayTriangle
import Verif.Props.ReplaceHierarchy
import Verif.Props.ScaleCharacter
import Verif.Props.Segments
import Verif.Props.SequenceErrors
import Verif.Props.SequenceFunction
import Verif.Props.SequencePipeline
import Verif.Props.SequenceSolver
import Verif.Props.SimdCollision
import Verif.Props.SimdCollisionEx
import Verif.Props.SimdConstraints
import Verif.Props.SimdError
import Verif.Props.SimdErrorEx
import Verif.Props.SimdLoss
import Verif.Props.Simplify
import Verif.Props.Simplify2
import Verif.Props.Skeleton
import Verif.Props.SkeletonFunction
import Verif.Props.SkinWeights
import Verif.Props.Skinning
import Verif.Props.Skinning2
import Verif.Props.Solver
import Verif.Props.SolverGradient
import Verif.Props.StateError
import Verif.Props.TensorCheck
import Verif.Props.TensorClosest
import Verif.Props.TensorLinear
import Verif.Props.TensorQuat
import Verif.Props.TensorQuatEx
import Verif.Props.TensorState
import Verif.Props.TensorTransform
import Verif.Props.TensorTransformEx
import Verif.Props.TrackerUtils
import Verif.Props.TrackerUtilsEx
import Verif.Props.Transform
import Verif.Props.TransformPose
import Verif.Props.TransformPoseEx
import Verif.Props.TransformSets
import Verif.Props.TransformText
import Verif.Props.TransformTextEx
import Verif.Props.TrcText
import Verif.Props.TriangleProjection
import Verif.Props.TrustRegion
import Verif.Props.UnionError
import Verif.Props.UnionError2
import Verif.Props.Utility
import Verif.Props.VertexError
import Verif.Props.VertexErrorEx
import Verif.Spec.BodyIk
import Verif.Spec.Bvh
import Verif.Spec.Calculus
import Verif.Spec.Capsule
import Verif.Spec.Character
import Verif.Spec.CollisionError
import Verif.Spec.ConstraintError
import Verif.Spec.Coplanarity
import Verif.Spec.DiffConstraints
import Verif.Spec.EllipsoidLimit
import Verif.Spec.ErrorFunction
import Verif.Spec.Euler
import Verif.Spec.FbxStream
import Verif.Spec.Geometry
import Verif.Spec.GltfBuffers
import Verif.Spec.GltfHierarchy
import Verif.Spec.GltfRoots
import Verif.Spec.JointDerivative
import Verif.Spec.KdTree
import Verif.Spec.LeastSquares
import Verif.Spec.Limits
import Verif.Spec.LimitsText
import Verif.Spec.LineReader
import Verif.Spec.LocatorText
import Verif.Spec.MarkerSubjects
import Verif.Spec.MarkerTracker
import Verif.Spec.Multipose
import Verif.Spec.ParameterTransform
import Verif.Spec.Polygons
import Verif.Spec.PosePrior
import Verif.Spec.PoseShape
import Verif.Spec.PoseShapeIo
import Verif.Spec.ReplaceHierarchy
import Verif.Spec.Rotation
import Verif.Spec.SequenceFunction
import Verif.Spec.SequenceSolver
import Verif.Spec.SimdConstraints
import Verif.Spec.SimdError
import Verif.Spec.Simplify
import Verif.Spec.Skeleton
import Verif.Spec.Skinning
import Verif.Spec.Solver
import Verif.Spec.TensorCheck
import Verif.Spec.TensorQuat
import Verif.Spec.TensorState
import Verif.Spec.TensorTransform
import Verif.Spec.TrackerUtils
import Verif.Spec.TransformPose
import Verif.Spec.TransformSets
import Verif.Spec.TransformText
import Verif.Spec.TrcText
import Verif.Spec.UnionError
import Verif.Spec.VertexError
