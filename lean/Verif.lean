import Verif.Format
import Verif.Model.Bits
import Verif.Model.Builder
import Verif.Model.Counters
import Verif.Model.Cylinder
import Verif.Model.Datatypes
import Verif.Model.Embree
import Verif.Model.EmbreeMemory
import Verif.Model.Memory
import Verif.Model.Plane
import Verif.Model.Print
import Verif.Model.Scene
import Verif.Model.Sphere
import Verif.Model.Traverse
import Verif.Model.TriMesh
import Verif.Proofs.AnyHit
import Verif.Proofs.AnyRound
import Verif.Proofs.AnyTests
import Verif.Proofs.Basic
import Verif.Proofs.BinSlack
import Verif.Proofs.Binary
import Verif.Proofs.Blind
import Verif.Proofs.Boxes
import Verif.Proofs.BuildTree
import Verif.Proofs.Built
import Verif.Proofs.Casts
import Verif.Proofs.ClosestBest
import Verif.Proofs.ClosestOpt
import Verif.Proofs.ClosestPoint
import Verif.Proofs.ClosestRound
import Verif.Proofs.ClosestSwap
import Verif.Proofs.ClosestUnique
import Verif.Proofs.Combine
import Verif.Proofs.Commit
import Verif.Proofs.CommitBoxes
import Verif.Proofs.CommitKinds
import Verif.Proofs.CommitMesh
import Verif.Proofs.CommitRound
import Verif.Proofs.Compose
import Verif.Proofs.Concurrent
import Verif.Proofs.Contract
import Verif.Proofs.Counters
import Verif.Proofs.Cover
import Verif.Proofs.CylCaps
import Verif.Proofs.CylDistAny
import Verif.Proofs.CylDistLow
import Verif.Proofs.CylDistReal
import Verif.Proofs.CylDistRound
import Verif.Proofs.CylDistSign
import Verif.Proofs.CylDistSpace
import Verif.Proofs.CylDistUp
import Verif.Proofs.CylEnter
import Verif.Proofs.CylFace
import Verif.Proofs.CylFound
import Verif.Proofs.CylHit
import Verif.Proofs.CylInner
import Verif.Proofs.CylNear
import Verif.Proofs.CylNormal
import Verif.Proofs.CylRound
import Verif.Proofs.CylSeen
import Verif.Proofs.CylShade
import Verif.Proofs.CylTaken
import Verif.Proofs.Cylinder
import Verif.Proofs.CylinderBox
import Verif.Proofs.CylinderCircle
import Verif.Proofs.CylinderDist
import Verif.Proofs.CylinderScene
import Verif.Proofs.DeepTree
import Verif.Proofs.Degenerate
import Verif.Proofs.Embree
import Verif.Proofs.EmbreeAgree
import Verif.Proofs.EmbreeApi
import Verif.Proofs.EmbreeCylRound
import Verif.Proofs.EmbreeCylinder
import Verif.Proofs.EmbreeDegenerate
import Verif.Proofs.EmbreeFound
import Verif.Proofs.EmbreeMemory
import Verif.Proofs.EmbreeRound
import Verif.Proofs.EmbreeTrace
import Verif.Proofs.Exact
import Verif.Proofs.Gradual
import Verif.Proofs.Grid
import Verif.Proofs.Kinds
import Verif.Proofs.Limits
import Verif.Proofs.Loop
import Verif.Proofs.Memory
import Verif.Proofs.MemoryScene
import Verif.Proofs.MemoryStale
import Verif.Proofs.Mesh
import Verif.Proofs.MeshNormal
import Verif.Proofs.Monotone
import Verif.Proofs.Newton
import Verif.Proofs.NewtonCircle
import Verif.Proofs.NormalRound
import Verif.Proofs.Ordered
import Verif.Proofs.Plane
import Verif.Proofs.PlaneBox
import Verif.Proofs.PlaneDist
import Verif.Proofs.PlaneFound
import Verif.Proofs.PlaneRound
import Verif.Proofs.Print
import Verif.Proofs.PrintJson
import Verif.Proofs.PrintLex
import Verif.Proofs.Queries
import Verif.Proofs.Rotation
import Verif.Proofs.RoundOps
import Verif.Proofs.Rounding
import Verif.Proofs.Safe
import Verif.Proofs.Sah
import Verif.Proofs.Scan
import Verif.Proofs.Scene
import Verif.Proofs.SceneBuild
import Verif.Proofs.Shadow
import Verif.Proofs.ShadowScene
import Verif.Proofs.Slab
import Verif.Proofs.Source
import Verif.Proofs.Sphere
import Verif.Proofs.SphereRound
import Verif.Proofs.SphereScan
import Verif.Proofs.Sqrt
import Verif.Proofs.Tested
import Verif.Proofs.Total
import Verif.Proofs.TriRound
import Verif.Proofs.TriScan
import Verif.Proofs.TriUv
import Verif.Proofs.Triangle
import Verif.Proofs.TubeRoots
import Verif.Proofs.TubeRound
import Verif.Proofs.Vector
import Verif.Proofs.Visit
import Verif.Proofs.VisitOr
import Verif.Proofs.Visits
import Verif.Props.AnyRound
import Verif.Props.Api
import Verif.Props.BackEnds
import Verif.Props.Boxes
import Verif.Props.Build
import Verif.Props.Closest
import Verif.Props.ClosestBest
import Verif.Props.ClosestOne
import Verif.Props.ClosestPoint
import Verif.Props.ClosestRound
import Verif.Props.ClosestSwap
import Verif.Props.ClosestUnique
import Verif.Props.Combine
import Verif.Props.CommitRound
import Verif.Props.Counters
import Verif.Props.CylDistAny
import Verif.Props.CylDistLow
import Verif.Props.CylDistReal
import Verif.Props.CylDistRound
import Verif.Props.CylDistSign
import Verif.Props.CylDistSpace
import Verif.Props.CylDistUp
import Verif.Props.CylFound
import Verif.Props.CylNormal
import Verif.Props.CylQuery
import Verif.Props.CylRound
import Verif.Props.Cylinder
import Verif.Props.CylinderCircle
import Verif.Props.CylinderDist
import Verif.Props.CylinderScene
import Verif.Props.Degenerate
import Verif.Props.Embree
import Verif.Props.EmbreeAgree
import Verif.Props.EmbreeApi
import Verif.Props.EmbreeCylRound
import Verif.Props.EmbreeDegenerate
import Verif.Props.EmbreeFound
import Verif.Props.EmbreeMemory
import Verif.Props.EmbreeRound
import Verif.Props.EmbreeScene
import Verif.Props.Free
import Verif.Props.Memory
import Verif.Props.MeshNormal
import Verif.Props.Newton
import Verif.Props.NormalRound
import Verif.Props.Overflow
import Verif.Props.Plane
import Verif.Props.PlaneDist
import Verif.Props.PlaneFound
import Verif.Props.PlaneRound
import Verif.Props.Print
import Verif.Props.ProductSign
import Verif.Props.Rays
import Verif.Props.Sah
import Verif.Props.SceneCyl
import Verif.Props.SceneNormal
import Verif.Props.SceneRound
import Verif.Props.Shadow
import Verif.Props.Slab
import Verif.Props.Sphere
import Verif.Props.SphereRound
import Verif.Props.Tested
import Verif.Props.Total
import Verif.Props.Transparent
import Verif.Props.Traverse
import Verif.Props.TriRound
import Verif.Props.Triangle
import Verif.Props.UvRound
import Verif.SampleCylinder
import Verif.SampleScene
import Verif.Samples
import Verif.SamplesReal
import Verif.Scalar
import Verif.Spec.AnyRound
import Verif.Spec.AnyTests
import Verif.Spec.Boxes
import Verif.Spec.ClosestRound
import Verif.Spec.ClosestUnique
import Verif.Spec.Collections
import Verif.Spec.Combine
import Verif.Spec.CommitRound
import Verif.Spec.Concurrent
import Verif.Spec.CylDist
import Verif.Spec.CylFound
import Verif.Spec.CylNormal
import Verif.Spec.CylRound
import Verif.Spec.Cylinder
import Verif.Spec.CylinderScene
import Verif.Spec.Degenerate
import Verif.Spec.Embree
import Verif.Spec.EmbreeCylRound
import Verif.Spec.EmbreeFound
import Verif.Spec.EmbreeMemory
import Verif.Spec.EmbreeRound
import Verif.Spec.Free
import Verif.Spec.Geometry
import Verif.Spec.Hits
import Verif.Spec.Lifo
import Verif.Spec.Limits
import Verif.Spec.Memory
import Verif.Spec.Newton
import Verif.Spec.NormalRound
import Verif.Spec.PlaneRound
import Verif.Spec.Print
import Verif.Spec.Queries
import Verif.Spec.Rounding
import Verif.Spec.Sah
import Verif.Spec.Scan
import Verif.Spec.Scene
import Verif.Spec.SceneNormal
import Verif.Spec.SceneRound
import Verif.Spec.Shadow
import Verif.Spec.Source
import Verif.Spec.Tested
import Verif.Spec.Tree
import Verif.Spec.TriRound
import Verif.Spec.Visits
import Verif.Vec
import Verif.XF
