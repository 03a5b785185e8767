import Verif.Props.BlockPartition
import Verif.Props.MeshSimple
import Verif.Props.MeshSimple1D
import Verif.Props.Partition
import Verif.Props.MeshDefs
import Verif.Props.FaceCells
import Verif.Props.MeshSet
import Verif.Props.MeshSetHistory
import Verif.Props.Tile
import Verif.Props.Sides
import Verif.Props.MeshCache
import Verif.Props.Polygon
import Verif.Props.Polyhedron
import Verif.Props.MeshGeometry
import Verif.Props.SimpleGeometry
import Verif.Props.PointInPolygon
import Verif.Props.SetRegistry
import Verif.Props.SetInit
import Verif.Props.State
import Verif.Props.Materials
import Verif.Props.RemMaterial
import Verif.Props.MultiVec
import Verif.Props.StateCopy
import Verif.Props.SideGeometry
import Verif.Props.CornerGeometry
import Verif.Props.SideGeometry1D
import Verif.Props.FactoryCapabilities
import Verif.Props.Regions
import Verif.Props.GeometricModel
import Verif.Props.PolygonRegion
import Verif.Props.EvenOdd
import Verif.Props.EvenOddRegion
import Verif.Props.PointLocation
import Verif.Props.PointLocation3
import Verif.Props.MetisGraph
import Verif.Props.BlockSearch
import Verif.Props.MeshSetClear
import Verif.Props.Exceptions
import Verif.Props.EntityTypes
import Verif.Props.MstkGenerate2
import Verif.Props.MstkGenerate2D
import Verif.Props.MstkNumbering
import Verif.Props.MstkQueries
import Verif.Props.MstkNeighbours
import Verif.Props.MstkOrient
import Verif.Props.MstkDirs
import Verif.Props.MstkCells
import Verif.Props.MstkFields
import Verif.Props.MstkStateFields
import Verif.Props.MstkBndry3
import Verif.Props.MstkBndry2
import Verif.Props.MstkBase
import Verif.Props.MstkSides
import Verif.Props.MstkTypes
import Verif.Props.MstkFaceCells
import Verif.Props.MstkTiles
import Verif.Props.MstkExtract3
import Verif.Props.MstkExtractMesh3
import Verif.Props.MstkExtract2
import Verif.Props.MstkExtractMisc
import Verif.Props.MstkInherit
import Verif.Props.MstkSets
import Verif.Props.MstkNamed
import Verif.Props.MstkCoords
import Verif.Props.MstkGeometry
import Verif.Props.MstkGeometry2
import Verif.Props.MstkSideGeometry
import Verif.Props.MstkSideGeometry2
import Verif.Props.MstkCollapse
import Verif.Props.MstkCleanup
import Verif.Props.MstkFile
import Verif.Props.StateSites
import Verif.Props.StateOrphans
import Verif.Props.MstkBuild
import Verif.Props.MstkBuildCells
import Verif.Props.MstkBuildGeom
import Verif.Props.MstkBuild2D
import Verif.Props.MstkBuild2DGeom
import Verif.Props.SameMesh
import Verif.Props.SameRegions
import Verif.Props.SameRegionSets
import Verif.Props.RegularRegionSets
import Verif.Props.RegularRegionSets2
import Verif.Props.ToyNumerics
import Verif.Props.BlockSearchMstk
import Verif.Props.BlockSearchMstk2
import Verif.Props.LineGeometry
import Verif.Props.BlockSearchEnds
import Verif.Props.MstkNewFields
import Verif.Props.MstkExtractAgain
import Verif.Props.MstkExtractGeometry
import Verif.Props.Partitioners
import Verif.Props.Lifetime
import Verif.Props.MultiData
import Verif.Props.MultiKept
import Verif.Props.RegularSides
import Verif.Props.RegularSides2
import Verif.Props.PointSets
import Verif.Props.RegularPointSets
import Verif.Props.RegularPointSets2
import Verif.Props.StructuredPointSets
import Verif.Props.LinePointSets
import Verif.Props.CellTypes
import Verif.Props.PointSetSizes
import Verif.Props.LineRegionSets
import Verif.Props.NodePointSets
import Verif.Props.SetKinds
import Verif.Props.SetAlgebra
import Verif.Props.LogicalRegionSets
import Verif.Props.DistributedSets
import Verif.Props.SetCopy
import Verif.Props.MaterialNames
import Verif.Props.SideGeometrySpherical
