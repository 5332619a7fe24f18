import Verif.Props.ClusterTree
import Verif.Props.TreeNode
import Verif.Props.BlockClusterTree
import Verif.Props.BoundingBox
import Verif.Props.HMatrix
import Verif.Props.HMatrixState
import Verif.Props.Aca
import Verif.Props.Octree
import Verif.Props.GridSegment
import Verif.Props.DataContainer
import Verif.Props.GridFactory
import Verif.Props.Barycentric
import Verif.Props.Lazy
import Verif.Props.Inside
import Verif.Props.Space
import Verif.Props.SpaceRWG
import Verif.Props.SpacePoly
import Verif.Props.Assembly
import Verif.Props.HMatAssembly
import Verif.Props.PotentialHMat
import Verif.Props.ListsCache
import Verif.Props.DiscreteOperator
import Verif.Props.AcaMatrix
import Verif.Props.WeakFormCache
import Verif.Props.Duffy
import Verif.Model.PairTopology
import Verif.Props.PairTopology
import Verif.Model.QuadratureSelector
import Verif.Props.QuadratureSelector
import Verif.Model.LocalAssembler
import Verif.Lemmas.LocalAssembler
import Verif.Props.LocalAssembler
import Verif.Model.IntegratorMap
import Verif.Props.IntegratorMap
import Verif.Model.ScalarKernelIntegral
import Verif.Spec.ScalarKernelIntegral
import Verif.Lemmas.ScalarKernelIntegral
import Verif.Props.ScalarKernelIntegral
import Verif.Model.NumericalIntegrator
import Verif.Spec.NumericalIntegrator
import Verif.Props.NumericalIntegrator
import Verif.Model.SpaceBarycentric
import Verif.Spec.SpaceBarycentric
import Verif.Lemmas.SpaceBarycentric
import Verif.Props.SpaceBarycentric
import Verif.Props.SpaceDual
import Verif.Model.ShapeTransformation
import Verif.Spec.ShapeTransformation
import Verif.Props.ShapeTransformation
import Verif.Model.SpaceVector
import Verif.Spec.SpaceVector
import Verif.Props.SpaceVector
import Verif.Spec.Conformity
import Verif.Props.Conformity
import Verif.Model.Kernels
import Verif.Spec.Kernels
import Verif.Props.Kernels
import Verif.Model.Hermite
import Verif.Lemmas.Hermite
import Verif.Props.Hermite
import Verif.Model.QuadratureTables
import Verif.Model.Quadrature
import Verif.Spec.Quadrature
import Verif.Lemmas.Quadrature
import Verif.Lemmas.QuadratureCert
import Verif.Props.Quadrature
import Verif.Model.LocalOperators
import Verif.Spec.LocalOperators
import Verif.Lemmas.LocalOperators
import Verif.Props.LocalOperators
import Verif.Model.GridFunctions
import Verif.Spec.GridFunctions
import Verif.Lemmas.GridFunctions
import Verif.Props.GridFunctions
import Verif.Model.PythonFunctor
import Verif.Spec.PythonFunctor
import Verif.Props.PythonFunctor
import Verif.Model.PotentialOperators
import Verif.Spec.PotentialOperators
import Verif.Lemmas.PotentialOperators
import Verif.Props.PotentialOperators
import Verif.Model.PotentialField
import Verif.Spec.PotentialField
import Verif.Lemmas.PotentialField
import Verif.Lemmas.PotentialAssembly
import Verif.Lemmas.PotentialNodes
import Verif.Props.PotentialField
import Verif.Model.PyDiscrete
import Verif.Spec.PyDiscrete
import Verif.Lemmas.PyDiscrete
import Verif.Lemmas.PyDiscrete2
import Verif.Props.PyDiscrete
import Verif.Model.PyBoundary
import Verif.Spec.PyBoundary
import Verif.Lemmas.PyBoundary
import Verif.Lemmas.PyBoundary2
import Verif.Props.PyBoundary
import Verif.Model.PyGridFunction
import Verif.Spec.PyGridFunction
import Verif.Lemmas.PyGridFunction
import Verif.Props.PyGridFunction
import Verif.Model.PyBlocked
import Verif.Spec.PyBlocked
import Verif.Lemmas.PyBlocked
import Verif.Lemmas.PyBlocked2
import Verif.Props.PyBlocked
import Verif.Model.PyBlockedBoundary
import Verif.Spec.PyBlockedBoundary
import Verif.Lemmas.PyBlockedBoundary
import Verif.Lemmas.PyBlockedBoundary2
import Verif.Lemmas.PyBlockedLists
import Verif.Props.PyBlockedBoundary
import Verif.Model.PySolvers
import Verif.Spec.PySolvers
import Verif.Lemmas.PySolvers
import Verif.Props.PySolvers
import Verif.Model.Osrc
import Verif.Spec.Osrc
import Verif.Lemmas.Pade
import Verif.Lemmas.Osrc
import Verif.Lemmas.Osrc2
import Verif.Props.Osrc
import Verif.Model.PyPotential
import Verif.Spec.PyPotential
import Verif.Lemmas.PyPotential
import Verif.Props.PyPotential
import Verif.Model.Refine
import Verif.Spec.Refine
import Verif.Lemmas.Refine
import Verif.Lemmas.RefineSplit
import Verif.Lemmas.RefineCount
import Verif.Props.Refine
import Verif.Model.Gmsh
import Verif.Spec.Gmsh
import Verif.Lemmas.Gmsh
import Verif.Lemmas.GmshRead
import Verif.Lemmas.GmshRenumber
import Verif.Lemmas.GmshFile
import Verif.Lemmas.GmshParse
import Verif.Lemmas.GmshImport
import Verif.Lemmas.GmshTotal
import Verif.Props.Gmsh
import Verif.Props.GmshData
import Verif.Model.Json
import Verif.Spec.Json
import Verif.Lemmas.Json
import Verif.Props.Json
import Verif.Model.PyOperators
import Verif.Spec.PyOperators
import Verif.Lemmas.PyOperators
import Verif.Lemmas.PyOperators2
import Verif.Lemmas.PyOperators3
import Verif.Lemmas.PyOperators4
import Verif.Lemmas.PyOperators5
import Verif.Lemmas.PyOperators6
import Verif.Lemmas.PyOperators7
import Verif.Props.PyOperators
import Verif.Props.PyOperators2
import Verif.Model.BuffaChristiansen
import Verif.Spec.BuffaChristiansen
import Verif.Lemmas.BcWalk
import Verif.Lemmas.BcState
import Verif.Lemmas.BcFan
import Verif.Lemmas.BcFine
import Verif.Lemmas.BcTables
import Verif.Lemmas.BcNext
import Verif.Lemmas.BcCoarse
import Verif.Lemmas.BcHalf
import Verif.Lemmas.BcEdge
import Verif.Lemmas.BcSpace
import Verif.Lemmas.BcField
import Verif.Lemmas.BcBasis
import Verif.Props.BuffaChristiansen
import Verif.Model.Chebychev
import Verif.Lemmas.Chebychev
import Verif.Props.Chebychev
import Verif.Model.BoundaryOperators
import Verif.Spec.BoundaryOperators
import Verif.Lemmas.BoundaryOperators
import Verif.Lemmas.BoundaryEntries
import Verif.Lemmas.BoundaryForms
import Verif.Lemmas.BoundaryRules
import Verif.Lemmas.QuadratureNodes
import Verif.Props.BoundaryOperators
import Verif.Props.BoundaryNodes
import Verif.Props.BoundaryIntegrators
import Verif.Model.Fractals
import Verif.Spec.Shapes
import Verif.Lemmas.Fractals
import Verif.Lemmas.FractalTriangle
import Verif.Lemmas.ShapeStatements
import Verif.Lemmas.Sierpinski
import Verif.Props.Sierpinski
import Verif.Spec.Koch
import Verif.Lemmas.Koch
import Verif.Lemmas.KochCode
import Verif.Props.Koch
import Verif.Model.Menger
import Verif.Spec.Menger
import Verif.Lemmas.Menger
import Verif.Lemmas.MengerCode
import Verif.Props.Menger
import Verif.Spec.Carpet
import Verif.Lemmas.Carpet
import Verif.Props.Carpet
import Verif.Model.Sphere
import Verif.Spec.Sphere
import Verif.Lemmas.SphereRefine
import Verif.Lemmas.Sphere
import Verif.Lemmas.SphereCover
import Verif.Lemmas.SphereBase
import Verif.Props.Sphere
import Verif.Model.HMatInspect
import Verif.Spec.HMatInspect
import Verif.Lemmas.HMatInspect
import Verif.Props.HMatInspect
import Verif.Model.PyGrid
import Verif.Props.PyGrid
import Verif.Model.PyGridView
import Verif.Props.PyGridView
import Verif.Model.PyStructured
import Verif.Props.PyStructured
import Verif.Model.SpacePolyDisc
import Verif.Spec.SpacePolyDisc
import Verif.Lemmas.SpacePolyDisc
import Verif.Props.SpacePolyDisc
import Verif.Model.Fenics
import Verif.Props.Fenics
import Verif.Model.Arrays
import Verif.Spec.Arrays
import Verif.Props.Arrays
import Verif.Model.PySpace
import Verif.Spec.PySpace
import Verif.Lemmas.PySpace
import Verif.Props.PySpace
import Verif.Model.Params
import Verif.Props.Params
import Verif.Model.SingularPart
import Verif.Props.SingularPart
import Verif.Model.DofBoxes
import Verif.Spec.DofBoxes
import Verif.Lemmas.DofBoxes
import Verif.Props.DofBoxes
import Verif.Props.DofBoxesBary
import Verif.Props.DofBoxesHMat
import Verif.Model.DofNormals
import Verif.Spec.DofNormals
import Verif.Props.DofNormals
import Verif.Props.DofNormalsBary
import Verif.Model.PySparse
import Verif.Props.PySparse
import Verif.Model.GridFunctionEval
import Verif.Spec.GridFunctionEval
import Verif.Props.GridFunctionEval
import Verif.Model.Compat
import Verif.Spec.Compat
import Verif.Lemmas.Compat
import Verif.Props.Compat
import Verif.Model.OperatorEvaluator
import Verif.Spec.OperatorEvaluator
import Verif.Lemmas.OperatorEvaluator
import Verif.Props.OperatorEvaluator
import Verif.Model.DiscontinuousSpace
import Verif.Spec.DiscontinuousSpace
import Verif.Lemmas.DiscontinuousSpace
import Verif.Props.DiscontinuousSpace
import Verif.Model.NumpyEigen
import Verif.Spec.NumpyEigen
import Verif.Props.NumpyEigen
import Verif.Model.DiscreteMemory
import Verif.Spec.DiscreteMemory
import Verif.Props.DiscreteMemory
import Verif.Model.Vtk
import Verif.Spec.Vtk
import Verif.Props.Vtk
import Verif.Model.Logging
import Verif.Spec.Logging
import Verif.Props.Logging
import Verif.Model.DataTypes
import Verif.Spec.DataTypes
import Verif.Props.DataTypes
import Verif.Model.ExportData
import Verif.Spec.ExportData
import Verif.Props.ExportData
import Verif.Props.ExportVtk
