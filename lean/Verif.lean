import Verif.Lemmas.AdjacencyList
import Verif.Lemmas.ArrayFold
import Verif.Lemmas.AssemblyBc
import Verif.Lemmas.AssemblyCalls
import Verif.Lemmas.AssemblyGlobal
import Verif.Lemmas.AssemblyLift
import Verif.Lemmas.AssemblyMatrix
import Verif.Lemmas.AssemblyVector
import Verif.Lemmas.AssemblyZero
import Verif.Lemmas.BBTree
import Verif.Lemmas.Bisect
import Verif.Lemmas.BlockNumbers
import Verif.Lemmas.BlockSpaces
import Verif.Lemmas.BlockSystem
import Verif.Lemmas.BoxMesh
import Verif.Lemmas.BucketFill
import Verif.Lemmas.CellPermMain
import Verif.Lemmas.CoefficientForm
import Verif.Lemmas.CoefficientPack
import Verif.Lemmas.Coefficients
import Verif.Lemmas.Collapse
import Verif.Lemmas.CollapseSpace
import Verif.Lemmas.Conforming
import Verif.Lemmas.ConformingTri
import Verif.Lemmas.CreateTopology
import Verif.Lemmas.CreateTopologyExchange
import Verif.Lemmas.CsrInsert
import Verif.Lemmas.DiscreteOperators
import Verif.Lemmas.DofNumbering
import Verif.Lemmas.DofmapBasic
import Verif.Lemmas.DofmapCheck
import Verif.Lemmas.DofmapExchange
import Verif.Lemmas.DualGraphExchange
import Verif.Lemmas.DualGraphLocal
import Verif.Lemmas.DualGraphResult
import Verif.Lemmas.EntityData
import Verif.Lemmas.EntityGhosts
import Verif.Lemmas.EntityMatch
import Verif.Lemmas.EntityOwner
import Verif.Lemmas.EntitySharing
import Verif.Lemmas.Exchange
import Verif.Lemmas.FormIntegrals
import Verif.Lemmas.FunctionOutput
import Verif.Lemmas.GhostComm
import Verif.Lemmas.GhostLayer
import Verif.Lemmas.GjkInside
import Verif.Lemmas.GjkLoop
import Verif.Lemmas.GjkMain
import Verif.Lemmas.GjkNear
import Verif.Lemmas.GjkReal
import Verif.Lemmas.GjkSimplex
import Verif.Lemmas.GjkTet
import Verif.Lemmas.GjkTetra
import Verif.Lemmas.Group
import Verif.Lemmas.Integration
import Verif.Lemmas.Interpolate
import Verif.Lemmas.InterpolateData
import Verif.Lemmas.InterpolateFn
import Verif.Lemmas.InterpolateOther
import Verif.Lemmas.LatticeMesh
import Verif.Lemmas.LatticeTiles
import Verif.Lemmas.LexSend
import Verif.Lemmas.LocatePairs
import Verif.Lemmas.LongEdge
import Verif.Lemmas.MatMulFetch
import Verif.Lemmas.MatMulRow
import Verif.Lemmas.MatrixScatter
import Verif.Lemmas.Nbx
import Verif.Lemmas.NewVertices
import Verif.Lemmas.Ordering
import Verif.Lemmas.Pack
import Verif.Lemmas.ParentFacet
import Verif.Lemmas.Partition
import Verif.Lemmas.Permutations
import Verif.Lemmas.PointOwnership
import Verif.Lemmas.PopLoop
import Verif.Lemmas.PostOffice
import Verif.Lemmas.PullBack
import Verif.Lemmas.RadixSort
import Verif.Lemmas.RefineCell
import Verif.Lemmas.RefineMarks
import Verif.Lemmas.RefineMesh
import Verif.Lemmas.RefineNumbers
import Verif.Lemmas.RefineTet
import Verif.Lemmas.RefineTetCheck
import Verif.Lemmas.Refinement
import Verif.Lemmas.RowPack
import Verif.Lemmas.Scatterer
import Verif.Lemmas.SharingRanks
import Verif.Lemmas.SparsityPattern
import Verif.Lemmas.StableSort
import Verif.Lemmas.StdAlg
import Verif.Lemmas.SubMap
import Verif.Lemmas.SubPerm
import Verif.Lemmas.SubSpace
import Verif.Lemmas.SuperLu
import Verif.Lemmas.TagFacets
import Verif.Lemmas.TagTransfer
import Verif.Lemmas.Transpose
import Verif.Lemmas.UniformConform
import Verif.Lemmas.UniformNumbers
import Verif.Lemmas.UniformTiles
import Verif.Lemmas.UnitCubes
import Verif.Lemmas.VectorOps
import Verif.Lemmas.VtkMaps
import Verif.Lemmas.VtkSimplex
import Verif.Lemmas.VtkTet
import Verif.Lemmas.VtkTetFaces
import Verif.Lemmas.VtkTetRem
import Verif.Lemmas.VtkTriangle
import Verif.Lemmas.VtkhdfMesh
import Verif.Lemmas.VtkhdfRead
import Verif.Lemmas.VtkhdfWrite
import Verif.Lemmas.WorldCheck
import Verif.Lemmas.Xdmf
import Verif.Model.AdjacencyList
import Verif.Model.Assembly
import Verif.Model.BBTree
import Verif.Model.BlockNonlinear
import Verif.Model.BlockSpaces
import Verif.Model.BlockSystem
import Verif.Model.BoxMesh
import Verif.Model.CellPerm
import Verif.Model.Coefficients
import Verif.Model.CollectiveTrace
import Verif.Model.Collide
import Verif.Model.CommGraph
import Verif.Model.CommObject
import Verif.Model.Connectivity
import Verif.Model.CreateForm
import Verif.Model.CreateTopology
import Verif.Model.CsrInsert
import Verif.Model.DiscreteOperators
import Verif.Model.DistThreads
import Verif.Model.DofTransform
import Verif.Model.DofmapBuilder
import Verif.Model.DofmapTranspose
import Verif.Model.DualGraph
import Verif.Model.EntityData
import Verif.Model.EntityGeom
import Verif.Model.EntityIndexing
import Verif.Model.EntityList
import Verif.Model.EntityMap
import Verif.Model.EntityNumbering
import Verif.Model.Exchange
import Verif.Model.FormIntegrals
import Verif.Model.FunctionOutput
import Verif.Model.FunctionView
import Verif.Model.Geometry
import Verif.Model.GhostIndices
import Verif.Model.GhostLayer
import Verif.Model.Gjk
import Verif.Model.Gmsh
import Verif.Model.GraphDistribute
import Verif.Model.Group
import Verif.Model.IndexMap
import Verif.Model.IntegrationDomains
import Verif.Model.InterpGeometry
import Verif.Model.Interpolate
import Verif.Model.InterpolateOther
import Verif.Model.IntervalRefinement
import Verif.Model.JitOptions
import Verif.Model.LinearProblem
import Verif.Model.LocalMaps
import Verif.Model.LocalRange
import Verif.Model.LocateDofs
import Verif.Model.LocateEntities
import Verif.Model.LocatePairs
import Verif.Model.LongEdge
import Verif.Model.MarkMax
import Verif.Model.MatMul
import Verif.Model.MatrixScatter
import Verif.Model.MatrixView
import Verif.Model.MeshTags
import Verif.Model.MpiJit
import Verif.Model.Nbx
import Verif.Model.NewVertices
import Verif.Model.Newton
import Verif.Model.NonlinearProblem
import Verif.Model.Offsets
import Verif.Model.Ordering
import Verif.Model.Pcx
import Verif.Model.Permutations
import Verif.Model.PetscBlock
import Verif.Model.PetscHandles
import Verif.Model.PetscLinear
import Verif.Model.PointMesh
import Verif.Model.PointOwnership
import Verif.Model.PointSearch
import Verif.Model.PostOffice
import Verif.Model.PullBack
import Verif.Model.PvdSeries
import Verif.Model.RadixSort
import Verif.Model.RealDofmap
import Verif.Model.RefineCells
import Verif.Model.RefineMarks
import Verif.Model.RefineSimplex
import Verif.Model.Refinement
import Verif.Model.Scatterer
import Verif.Model.SharedIndices
import Verif.Model.SharingRanks
import Verif.Model.SmallMatrix
import Verif.Model.SortByPerm
import Verif.Model.SpMV
import Verif.Model.SparsityPattern
import Verif.Model.StackMaps
import Verif.Model.StdAlg
import Verif.Model.SubMap
import Verif.Model.SubSpace
import Verif.Model.Submesh
import Verif.Model.SubmeshTags
import Verif.Model.SuperLu
import Verif.Model.TabulateExpr
import Verif.Model.TagTransfer
import Verif.Model.Timer
import Verif.Model.TimingTable
import Verif.Model.Transpose
import Verif.Model.UniformRefine
import Verif.Model.VectorOps
import Verif.Model.VtkPlot
import Verif.Model.VtkSeries
import Verif.Model.Vtkhdf
import Verif.Model.VtxWriter
import Verif.Model.World
import Verif.Model.Xdmf
import Verif.Model.XdmfNames
import Verif.Model.XdmfSeries
import Verif.Model.XdmfText
import Verif.Prelude
import Verif.Props.C01_C02_LocalRange
import Verif.Props.C03_RadixSort
import Verif.Props.C04_SortByPerm
import Verif.Props.C05_C06_IndexMap
import Verif.Props.C07_Nbx
import Verif.Props.C08_Pcx
import Verif.Props.C09_DistributeData
import Verif.Props.C100_TimingTable
import Verif.Props.C101_MatrixView
import Verif.Props.C102_MpiJit
import Verif.Props.C103_InterpGeometry
import Verif.Props.C104_CommObject
import Verif.Props.C105_PetscLinear
import Verif.Props.C106_PetscBlock
import Verif.Props.C107_BlockNonlinear
import Verif.Props.C108_FunctionView
import Verif.Props.C109_VtkSeries
import Verif.Props.C10_C11_Scatter
import Verif.Props.C110_CreateForm
import Verif.Props.C111_PetscHandles
import Verif.Props.C112_JitOptions
import Verif.Props.C113_DistThreads
import Verif.Props.C114_PointMesh
import Verif.Props.C115_XdmfText
import Verif.Props.C116_XdmfSeries
import Verif.Props.C117_PvdSeries
import Verif.Props.C118_VtxWriter
import Verif.Props.C119_XdmfNames
import Verif.Props.C12_VectorReductions
import Verif.Props.C13_Orthonormalize
import Verif.Props.C14_C15_SparsityPattern
import Verif.Props.C16_C17_CsrInsert
import Verif.Props.C18_MatrixScatter
import Verif.Props.C19_SpMV
import Verif.Props.C20_Transpose
import Verif.Props.C21_MatMul
import Verif.Props.C22_CollectiveTrace
import Verif.Props.C23_AdjacencyList
import Verif.Props.C24_Rcm
import Verif.Props.C25_GraphDistribute
import Verif.Props.C26_GhostIndices
import Verif.Props.C27_LocalMaps
import Verif.Props.C28_OwnedIndices
import Verif.Props.C29_SubMap
import Verif.Props.C30_StackMaps
import Verif.Props.C31_IndexToDestRanks
import Verif.Props.C32_MeshTags
import Verif.Props.C33_EntityMap
import Verif.Props.C34_SmallMatrix
import Verif.Props.C35_Permutations
import Verif.Props.C36_EntityList
import Verif.Props.C37_EntityNumbering
import Verif.Props.C38_EntityIndexing
import Verif.Props.C39_Connectivity
import Verif.Props.C40_SharingRanks
import Verif.Props.C41_CreateTopology
import Verif.Props.C42_Dofmap
import Verif.Props.C43_RealDofmap
import Verif.Props.C44_DualGraph
import Verif.Props.C45_Assembly
import Verif.Props.C46_Vector
import Verif.Props.C47_System
import Verif.Props.C48_LocateDofs
import Verif.Props.C49_Collisions
import Verif.Props.C50_Closest
import Verif.Props.C51_PointOwnership
import Verif.Props.C52_Subdivision
import Verif.Props.C53_Marks
import Verif.Props.C54_NewVertices
import Verif.Props.C55_Refinement
import Verif.Props.C56_TagTransfer
import Verif.Props.C57_Intervals
import Verif.Props.C58_Uniform
import Verif.Props.C59_Integration
import Verif.Props.C60_FormValue
import Verif.Props.C61_BoxMesh
import Verif.Props.C62_Submesh
import Verif.Props.C63_SubmeshTags
import Verif.Props.C64_VtkOrder
import Verif.Props.C65_GmshOrder
import Verif.Props.C66_Vtkhdf
import Verif.Props.C67_GhostLayer
import Verif.Props.C68_SubSpace
import Verif.Props.C69_Collapse
import Verif.Props.C70_Geometry
import Verif.Props.C71_DofmapTranspose
import Verif.Props.C72_LocateEntities
import Verif.Props.C73_EntityData
import Verif.Props.C74_Xdmf
import Verif.Props.C75_Coefficients
import Verif.Props.C76_Interpolate
import Verif.Props.C77_Eval
import Verif.Props.C78_InterpolateOther
import Verif.Props.C79_DofTransform
import Verif.Props.C80_DiscreteOperators
import Verif.Props.C81_LocatePairs
import Verif.Props.C82_Newton
import Verif.Props.C83_PullBack
import Verif.Props.C84_BlockSystem
import Verif.Props.C85_BlockSpaces
import Verif.Props.C86_SuperLu
import Verif.Props.C87_FunctionOutput
import Verif.Props.C88_MarkMax
import Verif.Props.C89_TabulateExpr
import Verif.Props.C90_LinearProblem
import Verif.Props.C91_NonlinearProblem
import Verif.Props.C92_Gmsh
import Verif.Props.C93_EntityGeom
import Verif.Props.C94_VtkPlot
import Verif.Props.C95_Gjk
import Verif.Props.C96_Collide
import Verif.Props.C97_PointSearch
import Verif.Props.C98_CommGraph
import Verif.Props.C99_Timer
import Verif.Spec.Assembly
import Verif.Spec.BBTree
import Verif.Spec.BlockNonlinear
import Verif.Spec.BlockSpaces
import Verif.Spec.BlockSystem
import Verif.Spec.BoxMesh
import Verif.Spec.CellNodes
import Verif.Spec.Coefficients
import Verif.Spec.Collide
import Verif.Spec.CommGraph
import Verif.Spec.CommObject
import Verif.Spec.Conforming
import Verif.Spec.CreateForm
import Verif.Spec.CsrView
import Verif.Spec.DiscreteOperators
import Verif.Spec.DistThreads
import Verif.Spec.DofTransform
import Verif.Spec.DualGraph
import Verif.Spec.EntityData
import Verif.Spec.EntityGeom
import Verif.Spec.FaceOrient
import Verif.Spec.FormValue
import Verif.Spec.FunctionOutput
import Verif.Spec.FunctionView
import Verif.Spec.Geometry
import Verif.Spec.GhostLayer
import Verif.Spec.Gjk
import Verif.Spec.GlobalIndex
import Verif.Spec.GlobalVector
import Verif.Spec.Gmsh
import Verif.Spec.Integration
import Verif.Spec.InterpGeometry
import Verif.Spec.Interpolate
import Verif.Spec.InterpolateOther
import Verif.Spec.IntervalRefinement
import Verif.Spec.JitOptions
import Verif.Spec.Json
import Verif.Spec.Lex
import Verif.Spec.LinearProblem
import Verif.Spec.LocateDofs
import Verif.Spec.LocateEntities
import Verif.Spec.LocatePairs
import Verif.Spec.MarkClosure
import Verif.Spec.MarkMax
import Verif.Spec.MatrixEntry
import Verif.Spec.MatrixValue
import Verif.Spec.MatrixView
import Verif.Spec.MixedMesh
import Verif.Spec.MpiJit
import Verif.Spec.NewVertices
import Verif.Spec.Newton
import Verif.Spec.NonlinearProblem
import Verif.Spec.ParentFacet
import Verif.Spec.Partition
import Verif.Spec.PetscBlock
import Verif.Spec.PetscHandles
import Verif.Spec.PetscLinear
import Verif.Spec.PointMesh
import Verif.Spec.PointOwnership
import Verif.Spec.PullBack
import Verif.Spec.PvdSeries
import Verif.Spec.ReferenceCell
import Verif.Spec.RefinedMesh
import Verif.Spec.ScalarMatrix
import Verif.Spec.SimplexMesh
import Verif.Spec.Sorting
import Verif.Spec.StoredEntry
import Verif.Spec.SubMap
import Verif.Spec.SubSpace
import Verif.Spec.Subdivision
import Verif.Spec.Submesh
import Verif.Spec.SubmeshTags
import Verif.Spec.TabulateExpr
import Verif.Spec.TagOf
import Verif.Spec.TagTransfer
import Verif.Spec.Timer
import Verif.Spec.TimingTable
import Verif.Spec.UniformMesh
import Verif.Spec.VtkPlot
import Verif.Spec.VtkSeries
import Verif.Spec.Vtkhdf
import Verif.Spec.VtxWriter
import Verif.Spec.Xdmf
import Verif.Spec.XdmfNames
import Verif.Spec.XdmfSeries
import Verif.Spec.XdmfText
