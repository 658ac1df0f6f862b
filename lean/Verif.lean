import Verif.Props.Mesh
import Verif.Props.MeshGraph
import Verif.Props.DofMap
import Verif.Props.Space
import Verif.Props.Assembly
import Verif.Props.L2Form
import Verif.Props.Projector
import Verif.Props.Trace
import Verif.Props.Mapping
import Verif.Props.Orientation
import Verif.Props.MeshStore
import Verif.Props.MeshMetrics
import Verif.Props.MeshOps
import Verif.Props.MeshCut
import Verif.Props.Shape
import Verif.Props.Domain
import Verif.Props.Retag
import Verif.Props.PointGeometry
import Verif.Props.LineGeometry
import Verif.Props.TriangleTest
import Verif.Props.FractureNetwork
import Verif.Props.Normal
import Verif.Props.VertexOps
import Verif.Props.Mesher
import Verif.Props.Skin
import Verif.Props.EmbedCut
import Verif.Props.Laplace
import Verif.Props.L2Error
import Verif.Props.DomainOps
import Verif.Model.DomainMarket
import Verif.Spec.DomainMarket
import Verif.Lemmas.DomainMarket
import Verif.Props.DomainMarket
import Verif.Model.Elasticity
import Verif.Spec.Elasticity
import Verif.Lemmas.Elasticity
import Verif.Props.Elasticity
import Verif.Model.Cosserat
import Verif.Spec.Cosserat
import Verif.Lemmas.Cosserat
import Verif.Props.Cosserat
import Verif.Model.TaylorHood
import Verif.Spec.TaylorHood
import Verif.Lemmas.TaylorHood
import Verif.Props.TaylorHood
import Verif.Model.Degenerate
import Verif.Spec.Degenerate
import Verif.Lemmas.Degenerate
import Verif.Props.Degenerate
import Verif.Model.Dual
import Verif.Spec.Dual
import Verif.Lemmas.Dual
import Verif.Props.Dual
import Verif.Model.DualBoundary
import Verif.Spec.DualBoundary
import Verif.Lemmas.DualBoundary
import Verif.Props.DualBoundary
import Verif.Model.DualLe
import Verif.Lemmas.DualLe
import Verif.Props.DualLe
import Verif.Model.DivError
import Verif.Spec.DivError
import Verif.Lemmas.DivError
import Verif.Props.DivError
import Verif.Model.Vtk
import Verif.Spec.Vtk
import Verif.Lemmas.Vtk
import Verif.Props.Vtk
import Verif.Model.DiscreteDomain
import Verif.Spec.DiscreteDomain
import Verif.Lemmas.DiscreteDomain
import Verif.Props.DiscreteDomain
import Verif.Model.Builder
import Verif.Spec.Builder
import Verif.Lemmas.Builder
import Verif.Props.Builder
import Verif.Props.BoxMesher
import Verif.Spec.BoxNetwork
import Verif.Lemmas.BoxNetwork
import Verif.Props.BoxNetwork
import Verif.Model.EdgeOps
import Verif.Lemmas.EdgeOps
import Verif.Props.EdgeOps
import Verif.Model.Basis
import Verif.Spec.Basis
import Verif.Props.Basis
import Verif.Props.Neighbour
import Verif.Model.BasisTrace
import Verif.Spec.BasisTrace
import Verif.Lemmas.BasisTrace
import Verif.Props.BasisTrace
import Verif.Model.PrimalBoundary
import Verif.Props.PrimalBoundary
import Verif.Model.Polygon
import Verif.Spec.Polygon
import Verif.Lemmas.Polygon
import Verif.Props.Polygon
import Verif.Lemmas.Winding
import Verif.Props.Winding
import Verif.Lemmas.PolygonNormal
import Verif.Props.Triangulate
import Verif.Model.MdBox
import Verif.Spec.MdBox
import Verif.Lemmas.MdBox
import Verif.Props.MdBox
import Verif.Model.TriangleTriangle
import Verif.Spec.TriangleTriangle
import Verif.Lemmas.TriangleTriangle
import Verif.Props.TriangleTriangle
import Verif.Model.PolygonPolygon
import Verif.Spec.PolygonPolygon
import Verif.Lemmas.PolygonPolygon
import Verif.Props.PolygonPolygon
import Verif.Model.EmbedVertex
import Verif.Spec.EmbedVertex
import Verif.Lemmas.EmbedVertex
import Verif.Props.EmbedVertex
import Verif.Model.IntersectEdges
import Verif.Spec.IntersectEdges
import Verif.Lemmas.IntersectEdges
import Verif.Props.IntersectEdges
import Verif.Model.LinesBox
import Verif.Spec.LinesBox
import Verif.Lemmas.LinesBox
import Verif.Props.LinesBox
import Verif.Model.StrongCosserat1
import Verif.Lemmas.StrongCosserat1
import Verif.Props.StrongCosserat1
import Verif.Model.StrongCosserat2
import Verif.Lemmas.StrongCosserat2
import Verif.Props.StrongCosserat2
import Verif.Model.StrongCosserat3
import Verif.Lemmas.StrongCosserat3
import Verif.Props.StrongCosserat3
import Verif.Model.StrongCauchy1
import Verif.Lemmas.StrongCauchy1
import Verif.Props.StrongCauchy1
import Verif.Model.StrongCauchy2
import Verif.Lemmas.StrongCauchy2
import Verif.Props.StrongCauchy2
import Verif.Model.StrongEcmor
import Verif.Lemmas.StrongEcmor
import Verif.Props.StrongEcmor
import Verif.Model.StrongArbogast
import Verif.Spec.StrongArbogast
import Verif.Lemmas.StrongArbogast
import Verif.Props.StrongArbogast
import Verif.Model.MdElliptic
import Verif.Lemmas.MdElliptic
import Verif.Props.MdElliptic
import Verif.Model.Coupling
import Verif.Spec.Coupling
import Verif.Lemmas.Coupling
import Verif.Props.Coupling
import Verif.Model.InterfaceCoupling
import Verif.Spec.InterfaceCoupling
import Verif.Lemmas.InterfaceCoupling
import Verif.Props.InterfaceCoupling
import Verif.Model.MdScaled
import Verif.Spec.MdScaled
import Verif.Lemmas.MdScaled
import Verif.Props.MdScaled
import Verif.Model.MdDegenerate
import Verif.Spec.MdDegenerate
import Verif.Lemmas.MdDegenerate
import Verif.Props.MdDegenerate
import Verif.Model.Manipulation
import Verif.Spec.Manipulation
import Verif.Lemmas.Manipulation
import Verif.Props.Manipulation
import Verif.Model.FractureOpening
import Verif.Spec.FractureOpening
import Verif.Lemmas.FractureOpening
import Verif.Props.FractureOpening
import Verif.Model.PlaneNetwork
import Verif.Spec.PlaneNetwork
import Verif.Lemmas.PlaneNetwork
import Verif.Props.PlaneNetwork
import Verif.Model.MeshWriter
import Verif.Spec.MeshWriter
import Verif.Lemmas.MeshWriter
import Verif.Props.MeshWriter
import Verif.Model.Planes
import Verif.Spec.Planes
import Verif.Lemmas.Planes
import Verif.Props.Planes
import Verif.Model.Multiplier
import Verif.Spec.Multiplier
import Verif.Lemmas.Multiplier
import Verif.Props.Multiplier
import Verif.Model.Transport
import Verif.Spec.Transport
import Verif.Lemmas.Transport
import Verif.Props.Transport
import Verif.Model.TransportExact
import Verif.Spec.TransportExact
import Verif.Props.TransportExact
import Verif.Model.Oden
import Verif.Spec.Oden
import Verif.Props.Oden
import Verif.Model.OdenExact
import Verif.Spec.OdenExact
import Verif.Props.OdenExact
import Verif.Model.MdCosserat
import Verif.Props.MdCosserat
import Verif.Model.TimeLoop
import Verif.Spec.TimeLoop
import Verif.Props.TimeLoop
import Verif.Model.ThreeFieldsExact
import Verif.Spec.ThreeFieldsExact
import Verif.Props.ThreeFieldsExact
import Verif.Model.ThreeFieldsForm
import Verif.Spec.ThreeFieldsForm
import Verif.Props.ThreeFieldsForm
import Verif.Model.Hydrothermal
import Verif.Spec.Hydrothermal
import Verif.Props.Hydrothermal
import Verif.Model.ThreeFieldsDiffusion
import Verif.Spec.ThreeFieldsDiffusion
import Verif.Lemmas.ThreeFieldsDiffusion
import Verif.Props.ThreeFieldsDiffusion
import Verif.Model.Quadrature
import Verif.Spec.Quadrature
import Verif.Lemmas.Quadrature
import Verif.Props.Quadrature
import Verif.Model.MdProduct
import Verif.Spec.MdProduct
import Verif.Props.MdProduct
import Verif.Model.ElementData
import Verif.Spec.ElementData
import Verif.Props.ElementData
import Verif.Model.FvTransfer
import Verif.Spec.FvTransfer
import Verif.Lemmas.FvTransfer
import Verif.Props.FvTransfer
import Verif.Model.DriverAssembly
import Verif.Spec.DriverAssembly
import Verif.Lemmas.DriverAssembly
import Verif.Props.DriverAssembly
import Verif.Model.Rates
import Verif.Spec.Rates
import Verif.Lemmas.Rates
import Verif.Props.Rates
import Verif.Model.ExampleDomain
import Verif.Spec.ExampleDomain
import Verif.Lemmas.ExampleDomain
import Verif.Props.ExampleDomain
import Verif.Model.FieldSplit
import Verif.Spec.FieldSplit
import Verif.Props.FieldSplit
import Verif.Model.FileNames
import Verif.Spec.FileNames
import Verif.Props.FileNames
import Verif.Model.MergedTables
import Verif.Spec.MergedTables
import Verif.Props.MergedTables
import Verif.Model.DriverSpaces
import Verif.Spec.DriverSpaces
import Verif.Props.DriverSpaces
import Verif.Model.Torsion
import Verif.Spec.Torsion
import Verif.Props.Torsion
import Verif.Model.DriverData
import Verif.Spec.DriverData
import Verif.Props.DriverData
import Verif.Model.StressRecovery
import Verif.Spec.StressRecovery
import Verif.Props.StressRecovery
import Verif.Model.ErrorTriangle
import Verif.Spec.ErrorTriangle
import Verif.Props.ErrorTriangle
import Verif.Model.ReproduceScenarios
import Verif.Spec.ReproduceScenarios
import Verif.Props.ReproduceScenarios
import Verif.Model.ScenarioPlots
import Verif.Spec.ScenarioPlots
import Verif.Props.ScenarioPlots
import Verif.Model.ErrorPlots
import Verif.Spec.ErrorPlots
import Verif.Props.ErrorPlots
import Verif.Model.ShapeAssignment
import Verif.Spec.ShapeAssignment
import Verif.Props.ShapeAssignment
import Verif.Model.ShapeTests
import Verif.Props.ShapeTests
import Verif.Model.LineArgsort
import Verif.Spec.LineArgsort
import Verif.Props.LineArgsort
import Verif.Model.CaseNames
import Verif.Spec.CaseNames
import Verif.Props.CaseNames
import Verif.Model.GraphOperations
import Verif.Spec.GraphOperations
import Verif.Props.GraphOperations
import Verif.Spec.Frame
import Verif.Lemmas.Frame
import Verif.Props.Frame
import Verif.Model.ContactDriver
import Verif.Spec.ContactDriver
import Verif.Props.ContactDriver
import Verif.Props.PolygonFrame
import Verif.Model.VertexTests
import Verif.Props.VertexTests
import Verif.Model.Betti
import Verif.Spec.Betti
import Verif.Props.Betti
import Verif.Model.ArbogastPlots
import Verif.Props.ArbogastPlots
import Verif.Model.GeometryTests
import Verif.Props.GeometryTests
import Verif.Model.ProjectorTests
import Verif.Props.ProjectorTests
import Verif.Model.MeshingTests
import Verif.Props.MeshingTests
import Verif.Model.FracturedLine
import Verif.Props.FracturedLine
import Verif.Model.ShapesPlotter
import Verif.Props.ShapesPlotter
import Verif.Model.FieldFigures
import Verif.Props.FieldFigures
