import Verif.Props.Threads
import Verif.Props.Grid
import Verif.Props.BezierPatches
import Verif.Props.Index
import Verif.Props.Permute
import Verif.Props.Flip
import Verif.Props.KnotInsertion
import Verif.Props.GlobalInsertion
import Verif.Props.Extraction
import Verif.Props.UniformRefine
import Verif.Props.BezierExtraction
import Verif.Props.Interfaces
import Verif.Props.BoundaryLabels
import Verif.Props.FlagRace
import Verif.Props.Multipatch
import Verif.Props.Mismatch
import Verif.Props.MultipatchCache
import Verif.Props.Orientation
import Verif.Props.Unique
import Verif.Props.Check
import Verif.Props.Pointers
import Verif.Props.ArraySet
import Verif.Props.Greville
import Verif.Props.Construct
import Verif.Props.SplineObject
import Verif.Props.Solve
import Verif.Props.Proximity
import Verif.Props.Integrate
import Verif.Props.Fit
import Verif.Props.FitSolve
import Verif.Props.RationalBasis
import Verif.Props.Create
import Verif.Props.CreateView
import Verif.Props.Revolve
import Verif.Props.RevolveShapes
import Verif.Props.Normalize
import Verif.Props.Ffd
import Verif.Props.Split
import Verif.Props.ExtractSpline
import Verif.Props.Gismo
import Verif.Props.Mapper
import Verif.Props.Files
import Verif.Props.Micro
import Verif.Props.MicroCreate
import Verif.Props.TileDerivatives
import Verif.Props.TileAngles
import Verif.Props.TileGeometry
import Verif.Props.TileGeometry3D
import Verif.Props.TileGeometryVoid
import Verif.Props.IntegrateElements
import Verif.Props.TileJoins
import Verif.Props.TileJoins2D
import Verif.Props.TileJoins3D
import Verif.Props.TileJoinsHollow
import Verif.Props.TileJoinsClosing3D
import Verif.Props.TileCloses
import Verif.Props.MfemDof
import Verif.Props.MfemFile
import Verif.Props.MfemCartesian
import Verif.Props.Irit
import Verif.Props.Cats
import Verif.Props.GismoGeometry
import Verif.Props.DetSpline
import Verif.Props.Boundary
import Verif.Props.Mesh
import Verif.Props.Bases
import Verif.Props.Png
import Verif.Props.FlipGeometry
import Verif.Props.Svg
import Verif.Props.SvgView
import Verif.Props.SvgPicture
import Verif.Props.Quiver
import Verif.Props.ShowOptions
import Verif.Props.FieldData
import Verif.Props.BezierAlgebra
import Verif.Props.BezierArithmetic
import Verif.Props.Cone
import Verif.Props.TileOrient
import Verif.Props.TileOrient3D
import Verif.Props.Convert
import Verif.Props.DetSplineKnots
import Verif.Props.TileArmadillo
import Verif.Props.TileConnected
import Verif.Props.TileExtrude
import Verif.Props.TileInverse
import Verif.Props.TileInverseOrient
import Verif.Props.TileConnectedMore
import Verif.Props.BezierSpline
import Verif.Props.MicroGeometry
import Verif.Props.Volume
import Verif.Props.MacroMatrix
import Verif.Props.MicroSens
import Verif.Props.MicroTile
import Verif.Props.Watertight
import Verif.Props.WatertightTiles
import Verif.Props.Lifetime
import Verif.Props.LifetimeWrites
import Verif.Props.MultipatchData
import Verif.Props.MicroInterfaces
import Verif.Props.Queries
import Verif.Props.ThreadErrors
import Verif.Props.CallSettings
import Verif.Props.Layout
import Verif.Props.RefineCache
import Verif.Props.MicroSettings
import Verif.Props.Copies
import Verif.Props.ArrayClass
import Verif.Props.Logging
import Verif.Props.Slsqp
import Verif.Props.SlsqpStops
import Verif.Props.Pickle
import Verif.Props.Nnls
import Verif.Props.NnlsOptimal
import Verif.Props.Lsq
import Verif.Props.SlsqpDirection
import Verif.Props.LsqCases
import Verif.Props.TileJoinsVoid
import Verif.Props.WatertightVoid
import Verif.Props.MicroInterfacesChi
import Verif.Props.Catalogue
import Verif.Props.TileOrientArmadillo
import Verif.Props.TileOrientEllips
import Verif.Props.Dispatch
import Verif.Props.TileInverseClosing
import Verif.Props.KnotSharing
import Verif.Props.RationalArrays
import Verif.Props.ConstructPartial
import Verif.Props.SplitBezier
import Verif.Props.Arrows
import Verif.Props.ControlMesh
import Verif.Props.VolumeFields
import Verif.Props.SvgApprox
import Verif.Props.SvgPoints
import Verif.Props.Display
import Verif.Props.GaussLegendre
import Verif.Props.MapperCalls
import Verif.Props.CliShow
import Verif.Props.UniformRefineCall
import Verif.Props.ExtractPlanes
import Verif.Props.KnotRead
import Verif.Props.FitCalls
import Verif.Props.ExtractionLimits
import Verif.Props.ExtrudeClosing
import Verif.Props.Sample
import Verif.Props.ShowStyle
import Verif.Props.MicroShow
import Verif.Props.VolumeFaces
import Verif.Props.SvgField
import Verif.Props.ExtractArrows
import Verif.Props.SlsqpUpdate
import Verif.Props.ReduceDegrees
