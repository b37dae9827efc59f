import Verif.Props.Tensor
import Verif.Props.Grid
import Verif.Props.Tolerance
import Verif.Props.BBox
import Verif.Props.Partition
import Verif.Props.Domain
import Verif.Props.Classify
import Verif.Props.Gauss
import Verif.Props.QuadMapping
import Verif.Props.RefSystem
import Verif.Props.FuncCombinators
import Verif.Props.Tpms
import Verif.Props.PrimitiveSigns
import Verif.Props.Roots
import Verif.Props.Monomials
import Verif.Props.Bezier
import Verif.Props.BezierArith
import Verif.Props.Lagrange
import Verif.Props.BezierPrimitives
import Verif.Props.Points
import Verif.Props.Vtu
import Verif.Props.Wirebasket
import Verif.Props.MeshOrient
import Verif.Props.MeshLevelset
import Verif.Props.MeshHistory
import Verif.Props.ReparamBezier
import Verif.Props.WireGen
import Verif.Props.Helpers
import Verif.Props.ReparamGeometry
import Verif.Props.CreateReparam
import Verif.Props.ReparamGeneral
import Verif.Props.GeneralExamples
import Verif.Props.GeneralPlane
import Verif.Props.GeneralCover
import Verif.Props.PyNumbering
import Verif.Props.PyTpIndex
import Verif.Props.PyTpMesh
import Verif.Props.PyMesh
import Verif.Props.PyFacets
import Verif.Props.PyUnfitted
import Verif.Props.PyPacker
import Verif.Props.PyFacetQuad
import Verif.Props.PyVersion
import Verif.Props.PyBoundary
import Verif.Props.PyTables
import Verif.Props.PyForms
import Verif.Props.PyShim
import Verif.Props.PyJit
import Verif.Props.PyKernel
import Verif.Props.PyQuad
import Verif.Props.PyReparam
import Verif.Props.PyImpl
import Verif.Props.PyImplFuncs
import Verif.Props.PyImplOps
import Verif.Props.PySolve
import Verif.Props.VtkFile
import Verif.Props.PyCartMesh
import Verif.Props.PyPlot
import Verif.Props.PyPlotFacets
import Verif.Props.PyRegex
import Verif.Props.PyText
import Verif.Props.PyTransform
import Verif.Props.PyErase
import Verif.Props.PyCheck
import Verif.Props.PyTextTables
import Verif.Props.PyTextExamples
import Verif.Props.PySort
import Verif.Props.GeneralDeep
import Verif.Props.PySolveExamples
import Verif.Props.PyViews
import Verif.Props.PyAssemble
import Verif.Props.PyModule
import Verif.Props.PyModuleExamples
import Verif.Props.PyFormsHeap
import Verif.Props.PyIntegral
import Verif.Props.PyIntegralEx
import Verif.Props.PyIntegralMeasure
import Verif.Props.PyIntegralFE
import Verif.Props.PyIntegralFEEx
import Verif.Props.PyIntegralLoad
import Verif.Props.PyIntegralLoadEx
import Verif.Props.PyIntegralFacet
import Verif.Props.PyIntegralFacetEx
import Verif.Props.Integrals
import Verif.Props.IntegralsGauss
import Verif.Props.IntegralsEx
import Verif.Props.PySystems
import Verif.Props.PyIntegralFacetMeasure
import Verif.Props.PyIntegralSide
import Verif.Props.PyIntegralSideFE
import Verif.Props.PyIntegralSideEx
import Verif.Props.PyIntegralSurface
import Verif.Props.PyIntegralSurfaceFE
import Verif.Props.PyIntegralSurfaceEx
import Verif.Props.PyIntegralNanson
import Verif.Props.PyIntegralSurfaceLoad
import Verif.Props.PyIntegralSurfaceLoadEx
