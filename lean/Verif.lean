import Verif.Props.MultiIndex
import Verif.Props.Algorithm
import Verif.Props.Combinatorics
import Verif.Props.Zero
import Verif.Props.LinearAllocator
import Verif.Props.Hash
import Verif.Props.GMSHLexer
import Verif.Props.GMSHParser
import Verif.Props.Distribute
import Verif.Props.CommPattern
import Verif.Props.ScatterPlan
import Verif.Props.Simplex
import Verif.Props.LocalFaces
import Verif.Props.Partition
import Verif.Props.Faces
import Verif.Props.LocalMesh
import Verif.Props.FacetData
import Verif.Props.Ghosts
import Verif.Model.Schema
import Verif.Spec.Schema
import Verif.Props.Schema
import Verif.Model.Tensor
import Verif.Props.Tensor
import Verif.Model.Affinity
import Verif.Props.Affinity
import Verif.Model.GenMesh
import Verif.Props.GenMesh
import Verif.Spec.GenMesh
import Verif.Spec.Convex
import Verif.Props.GenMeshConforming
import Verif.Props.GenMeshTiling
import Verif.Model.GenMeshBoundary
import Verif.Props.GenMeshBoundary
import Verif.Model.VTU
import Verif.Spec.VTU
import Verif.Lemmas.VTU
import Verif.Props.VTU
import Verif.Model.Probes
import Verif.Props.Probes
import Verif.Model.Table
import Verif.Spec.Table
import Verif.Props.Table
import Verif.Lemmas.Tiling
import Verif.Model.HDF5Writer
import Verif.Props.HDF5Writer
import Verif.Model.Monitor
import Verif.Props.Monitor
import Verif.Spec.Monitor
import Verif.Model.MGConfig
import Verif.Props.MGConfig
import Verif.Model.TSCheckpoint
import Verif.Props.TSCheckpoint
import Verif.Model.GreenOp
import Verif.Spec.GreenOp
import Verif.Props.GreenOp
import Verif.Model.DGTopo
import Verif.Spec.DGTopo
import Verif.Spec.DGMatrix
import Verif.Lemmas.DGTopo
import Verif.Props.BoundaryMap
import Verif.Props.DGTopoMesh
import Verif.Props.DGTopo
import Verif.Props.DGMatrix
import Verif.Model.DGAssembly
import Verif.Spec.DGAssembly
import Verif.Lemmas.DGAssembly
import Verif.Lemmas.GlobalMatrix
import Verif.Model.Poisson
import Verif.Props.Poisson
import Verif.Props.PoissonMatrix
import Verif.Props.PoissonBR2
import Verif.Props.PoissonRhs
import Verif.Lemmas.Residual
import Verif.Lemmas.GlobalForm
import Verif.Props.PoissonConsistency
import Verif.Props.PoissonPSD
import Verif.Model.DieterichRuina
import Verif.Model.RateAndState
import Verif.Spec.Friction
import Verif.Lemmas.DieterichRuina
import Verif.Props.DieterichRuina
import Verif.Props.RateAndState
import Verif.Lemmas.Algorithm
import Verif.Lemmas.AllToAll
import Verif.Lemmas.Combinatorics
import Verif.Lemmas.CommPattern
import Verif.Lemmas.Equidistant
import Verif.Lemmas.Faces
import Verif.Lemmas.Functions
import Verif.Lemmas.GMSHLexer
import Verif.Lemmas.GMSHParser
import Verif.Lemmas.GenMesh
import Verif.Lemmas.Ghosts
import Verif.Lemmas.Ghosts2
import Verif.Lemmas.Ghosts3
import Verif.Lemmas.Ghosts4
import Verif.Lemmas.Lehmer
import Verif.Lemmas.LinearAllocator
import Verif.Lemmas.MeshBuilder
import Verif.Lemmas.MultiIndex
import Verif.Lemmas.ScatterPlan
import Verif.Lemmas.Sums
import Verif.Lemmas.Zero
import Verif.Model.Algorithm
import Verif.Model.Combinatorics
import Verif.Model.CommPattern
import Verif.Model.Distribute
import Verif.Model.Equidistant
import Verif.Model.Faces
import Verif.Model.FacetData
import Verif.Model.Functions
import Verif.Model.GMSHLexer
import Verif.Model.GMSHParser
import Verif.Model.Ghosts
import Verif.Model.Hash
import Verif.Model.LinearAllocator
import Verif.Model.LocalFaces
import Verif.Model.LocalMesh
import Verif.Model.MeshBuilder
import Verif.Model.MultiIndex
import Verif.Model.NodePermutation
import Verif.Model.Partition
import Verif.Model.ScatterPlan
import Verif.Model.Simplex
import Verif.Model.Zero
import Verif.Props.Equidistant
import Verif.Props.Functions
import Verif.Props.MeshBuilder
import Verif.Props.NodePermutation
import Verif.Spec.Algorithm
import Verif.Spec.Combinatorics
import Verif.Spec.Faces
import Verif.Spec.Functions
import Verif.Spec.GMSHLexer
import Verif.Spec.GMSHParser
import Verif.Spec.Ghosts
import Verif.Spec.GhostsEnv
import Verif.Spec.MultiIndex
import Verif.Spec.Nodes
import Verif.Model.HDF5MeshParser
import Verif.Props.HDF5MeshParser
import Verif.Model.Curvilinear
import Verif.Lemmas.Curvilinear
import Verif.Props.Curvilinear
import Verif.Props.CurvilinearMesh
import Verif.Props.FacetBasis
import Verif.Model.Adapter
import Verif.Props.Adapter
import Verif.Model.Elasticity
import Verif.Spec.Wave
import Verif.Lemmas.Elasticity
import Verif.Props.Elasticity
import Verif.Props.ElasticityMatrix
import Verif.Props.ElasticityBR2
import Verif.Props.ElasticityConsistency
import Verif.Props.ElasticityPSD
import Verif.Model.SimplexDistance
import Verif.Spec.SimplexDistance
import Verif.Lemmas.SimplexDistance
import Verif.Props.SimplexDistance
import Verif.Model.PointLocator
import Verif.Spec.PointLocator
import Verif.Props.PointLocator
import Verif.Lemmas.JacobiOrtho
import Verif.Lemmas.DubinerSpan
import Verif.Lemmas.RefElement
import Verif.Lemmas.Vandermonde
import Verif.Model.RefElement
import Verif.Spec.RefElement
import Verif.Props.RefElement
import Verif.Lemmas.JacobiPoly
import Verif.Lemmas.DubinerOrtho
import Verif.Props.MassMatrix
import Verif.Lemmas.GaussQuadrature
import Verif.Model.Quadrature
import Verif.Spec.Quadrature
import Verif.Lemmas.Quadrature
import Verif.Lemmas.SimplexMoments
import Verif.Props.Quadrature
import Verif.Model.QuadTable
import Verif.Model.Tables.Tri
import Verif.Model.Tables.Tet
import Verif.Model.Tables.JSA
import Verif.Model.Tables.JSB
import Verif.Model.Tables.JSC
import Verif.Model.Tables.JSD
import Verif.Model.Tables.JSE
import Verif.Model.QuadRules
import Verif.Lemmas.QuadCheck
import Verif.Lemmas.Tables.Tri
import Verif.Lemmas.Tables.Tet
import Verif.Lemmas.Tables.JSA
import Verif.Lemmas.Tables.JSB
import Verif.Lemmas.Tables.JSC
import Verif.Lemmas.Tables.JSD
import Verif.Lemmas.Tables.JSE
import Verif.Lemmas.Tables.Gauss
import Verif.Lemmas.QuadTable
import Verif.Lemmas.QuadPerturb
import Verif.Lemmas.NewtonCert
import Verif.Lemmas.GaussCert
import Verif.Spec.QuadTable
import Verif.Props.QuadTable
import Verif.Lemmas.GaussRoots
import Verif.Props.QuadStable
import Verif.Model.LSPoly
import Verif.Spec.LSPoly
import Verif.Lemmas.HypPoly
import Verif.Lemmas.LSOptimal
import Verif.Lemmas.LSStable
import Verif.Lemmas.LSPoly
import Verif.Props.LSPoly
import Verif.Model.WarpAndBlend
import Verif.Spec.WarpAndBlend
import Verif.Lemmas.Warp
import Verif.Lemmas.WarpBary
import Verif.Props.WarpAndBlend
import Verif.Model.EigDeflate
import Verif.Spec.EigDeflate
import Verif.Lemmas.EigDeflate
import Verif.Lemmas.EigRitz
import Verif.Props.EigDeflate
import Verif.Model.Error
import Verif.Spec.Error
import Verif.Props.Error
import Verif.Model.Lua
import Verif.Spec.Lua
import Verif.Props.Lua
import Verif.Model.Scenario
import Verif.Spec.Scenario
import Verif.Props.Scenario
import Verif.Model.CurvilinearBuild
import Verif.Spec.CurvilinearBuild
import Verif.Lemmas.Trace
import Verif.Props.CurvilinearBuild
import Verif.Props.GeometryData
import Verif.Model.SeasOp
import Verif.Spec.SeasOp
import Verif.Lemmas.SeasOp
import Verif.Props.SeasOp
import Verif.Model.Main
import Verif.Spec.Main
import Verif.Lemmas.Main
import Verif.Lemmas.MainPath
import Verif.Props.Main
import Verif.Lemmas.TraceIneq
import Verif.Spec.TraceIneq
import Verif.Props.TraceIneq
import Verif.Model.LinearSolver
import Verif.Spec.LinearSolver
import Verif.Props.LinearSolver
import Verif.Model.LogTime
import Verif.Spec.LogTime
import Verif.Props.LogTime
import Verif.Model.TSSerial
import Verif.Spec.TSSerial
import Verif.Props.TSSerial
import Verif.Model.TimeSolver
import Verif.Spec.TimeSolver
import Verif.Props.TimeSolver
import Verif.Model.Static
import Verif.Spec.Options
import Verif.Spec.Static
import Verif.Lemmas.Options
import Verif.Props.Options
import Verif.Props.Static
import Verif.Props.FaultOutput
import Verif.Props.OutputSeries
import Verif.Model.Cfl
import Verif.Spec.Cfl
import Verif.Lemmas.PsdCheck
import Verif.Lemmas.GradIneq
import Verif.Lemmas.GradCert2a
import Verif.Lemmas.GradCert2b
import Verif.Lemmas.GradCert2c
import Verif.Lemmas.GradCert3a
import Verif.Lemmas.GradCert3b
import Verif.Props.Cfl
import Verif.Props.CflStraight
import Verif.Model.Material
import Verif.Spec.Material
import Verif.Props.Material
import Verif.Model.Construct
import Verif.Spec.Construct
import Verif.Props.Construct
import Verif.Props.ConstructStraight
import Verif.Props.ConstructMatrix
import Verif.Props.ConstructExample
import Verif.Lemmas.SimplexDivergence
import Verif.Spec.PatchTest
import Verif.Lemmas.PatchTest
import Verif.Props.PatchTest
import Verif.Props.PatchTestExample
import Verif.Model.SeasRun
import Verif.Spec.SeasRun
import Verif.Props.SeasRun
import Verif.Lemmas.Definite
import Verif.Lemmas.PoissonDefinite
import Verif.Lemmas.DefiniteStraight
import Verif.Lemmas.SystemSolve
import Verif.Spec.Definite
import Verif.Props.PoissonDefinite
import Verif.Lemmas.Rigid
import Verif.Lemmas.ElasticityDefinite
import Verif.Props.ElasticityDefinite
import Verif.Props.PoissonDefiniteExample
import Verif.Model.DirectTraction
import Verif.Spec.DirectTraction
import Verif.Lemmas.Superposition
import Verif.Props.GreenTraction
import Verif.Props.DirectTraction
import Verif.Props.DirectTractionPoisson
import Verif.Props.DirectTractionExample
import Verif.Lemmas.BilinearForm
import Verif.Lemmas.LinearOde
import Verif.Spec.WaveEnergy
import Verif.Props.WaveEnergy
import Verif.Props.WaveSolvable
import Verif.Props.WaveEnergyBuild
import Verif.Model.Profile
import Verif.Spec.Profile
import Verif.Props.Profile
import Verif.Model.CheckBc
import Verif.Props.CheckBc
import Verif.Model.TablePrinter
import Verif.Props.TablePrinter
