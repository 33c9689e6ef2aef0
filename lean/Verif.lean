import Verif.Base64Props
import Verif.DeserProps
import Verif.RoundTripProps
import Verif.FixUpProps
import Verif.MetaProps
import Verif.GridProps
import Verif.TileProps
import Verif.QueuesProps
import Verif.RefCountProps
import Verif.CApiRefProps
import Verif.PoolProps
import Verif.IpcProps
import Verif.CacheProps
import Verif.HybridProps
import Verif.HashProps
import Verif.GradientProps
import Verif.BasicProps
import Verif.CellularProps
import Verif.LatticeProps
import Verif.FractalProps
import Verif.ModifierProps
import Verif.RotateProps
import Verif.NamesProps
import Verif.EditorProps
import Verif.EditorFileProps
import Verif.SimplexRaw
import Verif.WarpGrad
import Verif.SimplexProps
import Verif.WarpGradSpec
import Verif.WarpGradLemmas
import Verif.WarpGradOrth
import Verif.WarpSimplex
import Verif.WarpSimplexSpec
import Verif.WarpSimplexLemmas
import Verif.WarpBasisSpec
import Verif.WarpBasis
import Verif.WarpBasisNear
import Verif.WarpSimplexProps
import Verif.WarpFractalProps
import Verif.DmcTable
import Verif.Mesh
import Verif.MeshSpec
import Verif.MeshTable
import Verif.MeshLemmas
import Verif.MeshCode
import Verif.MeshQuad
import Verif.MeshChunk
import Verif.MeshVert
import Verif.MeshClosed
import Verif.MeshWorld
import Verif.MeshFacing
import Verif.MeshShadeSpec
import Verif.MeshShade
import Verif.MeshProps
import Verif.Bloxel
import Verif.BloxelSpec
import Verif.BloxelLemmas
import Verif.BloxelChunk
import Verif.BloxelClosed
import Verif.BloxelProps
import Verif.Height
import Verif.HeightSpec
import Verif.HeightLemmas
import Verif.HeightClosed
import Verif.HeightProps
import Verif.Chunks
import Verif.ChunksSpec
import Verif.ChunksLemmas
import Verif.ChunksInv
import Verif.ChunksRun
import Verif.ChunksProps
import Verif.Texture
import Verif.TextureSpec
import Verif.TextureLemmas
import Verif.TextureProps
import Verif.Prefs
import Verif.PrefsSpec
import Verif.PrefsLemmas
import Verif.PrefsProps
import Verif.SerIso
import Verif.CanonSpec
import Verif.CanonLemmas
import Verif.CanonProps
import Verif.EditorTextProps
import Verif.EditorView
import Verif.EditorViewSpec
import Verif.EditorViewLemmas
import Verif.EditorViewSteps
import Verif.EditorViewProj
import Verif.EditorViewOps
import Verif.EditorViewAdd
import Verif.EditorViewDelete
import Verif.EditorViewMain
import Verif.EditorViewProps
import Verif.EditorAutosave
import Verif.EditorAutosaveSpec
import Verif.EditorAutosaveLemmas
import Verif.EditorAutosaveProps
import Verif.CGen
import Verif.CGenSpec
import Verif.CGenLemmas
import Verif.CGenProps
import Verif.F32
import Verif.F32Lemmas
import Verif.FloatNoise
import Verif.FloatNoiseLemmas
import Verif.FloatErrLemmas
import Verif.FloatNoiseProps
import Verif.FloatGrid
import Verif.FloatGridProps
import Verif.RangeCheck
import Verif.RangeCheckLemmas
import Verif.RangeCertSimplex2
import Verif.RangeCertSimplex2All
import Verif.RangeCertSimplex2P0
import Verif.RangeCertSimplex3
import Verif.RangeCertSimplex3All
import Verif.RangeCertSimplex3P0
import Verif.RangeCertSimplex3P1
import Verif.RangeCertSimplex3P2
import Verif.RangeCertSimplex3P3
import Verif.RangeCertSimplex3P4
import Verif.RangeCertSimplex4
import Verif.RangeCertSimplex4All
import Verif.RangeCertSimplex4P0
import Verif.RangeCertSimplex4P1
import Verif.RangeCertSimplex4P2
import Verif.RangeCertSimplex4P3
import Verif.RangeCertSimplex4P4
import Verif.RangeCertSimplex4P5
import Verif.RangeCertSuper2
import Verif.RangeCertSuper2All
import Verif.RangeCertSuper2P0
import Verif.RangeCertSuper3
import Verif.RangeCertSuper3All
import Verif.RangeCertSuper3P0
import Verif.RangeCertSuper3P1
import Verif.RangeCertSuper3P2
import Verif.RangeCertSuper3P3
import Verif.RangeCertSuper3P4
import Verif.RangeCertSuper3P5
import Verif.RangeCertSuper3P6
import Verif.RangeCertSuper3P7
import Verif.RangeCertSuper3P8
import Verif.RangeCertSuper4
import Verif.RangeCertSuper4All
import Verif.RangeCertSuper4P0
import Verif.RangeCertSuper4P1
import Verif.RangeCertSuper4P2
import Verif.RangeCertSuper4P3
import Verif.RangeCertSuper4P4
import Verif.SimplexRange
import Verif.SimplexRangeLemmas
import Verif.SimplexRangeProps
import Verif.FloatPerlin
import Verif.FloatPerlinLemmas
import Verif.FloatPerlinProps
import Verif.PolyCheck
import Verif.PerlinRangeLemmas
import Verif.Base64
import Verif.Base64EncLemmas
import Verif.Base64Lemmas
import Verif.Base64Spec
import Verif.Basic
import Verif.BitsLemmas
import Verif.CApi
import Verif.CApiRef
import Verif.Cache
import Verif.CacheLemmas
import Verif.CacheSpec
import Verif.Cellular
import Verif.CellularGeo
import Verif.CellularLemmas
import Verif.DeserInst
import Verif.DeserLemmas
import Verif.DeserSpec
import Verif.Deserialise
import Verif.Editor
import Verif.EditorAnyFile
import Verif.EditorCrash
import Verif.EditorCut
import Verif.EditorFile
import Verif.EditorFileSpec
import Verif.EditorFit
import Verif.EditorFloat
import Verif.EditorInv
import Verif.EditorLemmas
import Verif.EditorLoad
import Verif.EditorMain
import Verif.EditorOps
import Verif.EditorRead
import Verif.EditorRestore
import Verif.EditorSpec
import Verif.EditorSteps
import Verif.EditorText
import Verif.EditorWrite
import Verif.FixSpec
import Verif.FixUp
import Verif.Fractal
import Verif.FractalLemmas
import Verif.Gradient
import Verif.GradientLemmas
import Verif.GradientSpec
import Verif.Grid
import Verif.GridLemmas
import Verif.Hash
import Verif.Hybrid
import Verif.HybridSpec
import Verif.Ipc
import Verif.IpcLemmas
import Verif.IpcRace
import Verif.IpcRaceAlone
import Verif.IpcRaceLemmas
import Verif.IpcSpec
import Verif.Lattice
import Verif.LatticeLemmas
import Verif.MetaVec
import Verif.MetaVecLemmas
import Verif.Modifiers
import Verif.ModifiersLemmas
import Verif.Names
import Verif.NormCertSimplex2
import Verif.NormCertSimplex2All
import Verif.NormCertSimplex2P0
import Verif.NormCertSimplex3
import Verif.NormCertSimplex3All
import Verif.NormCertSimplex3P0
import Verif.NormCertSimplex3P1
import Verif.NormCertSimplex3P2
import Verif.NormCertSimplex3P3
import Verif.NormCertSimplex4
import Verif.NormCertSimplex4All
import Verif.NormCertSimplex4P0
import Verif.NormCertSimplex4P1
import Verif.NormCertSimplex4P2
import Verif.NormCertSimplex4P3
import Verif.NormCertSimplex4P4
import Verif.NormCertSimplex4P5
import Verif.NormCertSuper2
import Verif.NormCertSuper2All
import Verif.NormCertSuper2P0
import Verif.NormCertSuper3
import Verif.NormCertSuper3All
import Verif.NormCertSuper3P0
import Verif.NormCertSuper3P1
import Verif.NormCertSuper3P2
import Verif.NormCertSuper4
import Verif.NormCertSuper4All
import Verif.NormCertSuper4P0
import Verif.NormCertSuper4P1
import Verif.NormCertSuper4P2
import Verif.NormCertSuper4P3
import Verif.NormCertSuper4P4
import Verif.NormCertSuper4P5
import Verif.NormCertSuper4P6
import Verif.NormCertSuper4P7
import Verif.NormCheck
import Verif.NormCheckLemmas
import Verif.Num
import Verif.NumLemmas
import Verif.Pool
import Verif.PoolChain
import Verif.PoolLemmas
import Verif.PoolMutex
import Verif.Queues
import Verif.RangeCertOuterSimplex2
import Verif.RangeCertOuterSimplex2All
import Verif.RangeCertOuterSimplex2P0
import Verif.RangeCertOuterSimplex4
import Verif.RangeCertOuterSimplex4All
import Verif.RangeCertOuterSimplex4P0
import Verif.RangeCertOuterSimplex4P1
import Verif.RangeCertOuterSimplex4P2
import Verif.RangeCertOuterSimplex4P3
import Verif.RangeCertOuterSimplex4P4
import Verif.RangeCertOuterSimplex4P5
import Verif.RangeCertOuterSimplex4P6
import Verif.RangeCertOuterSimplex4P7
import Verif.RangeCertOuterSuper2
import Verif.RangeCertOuterSuper2All
import Verif.RangeCertOuterSuper2P0
import Verif.RangeCertOuterSuper4
import Verif.RangeCertOuterSuper4All
import Verif.RangeCertOuterSuper4P0
import Verif.RangeCertOuterSuper4P1
import Verif.RangeCertOuterSuper4P10
import Verif.RangeCertOuterSuper4P2
import Verif.RangeCertOuterSuper4P3
import Verif.RangeCertOuterSuper4P4
import Verif.RangeCertOuterSuper4P5
import Verif.RangeCertOuterSuper4P6
import Verif.RangeCertOuterSuper4P7
import Verif.RangeCertOuterSuper4P8
import Verif.RangeCertOuterSuper4P9
import Verif.RefCount
import Verif.RefCountInv
import Verif.RefCountLemmas
import Verif.Registry
import Verif.RoundTrip
import Verif.RoundTrip2
import Verif.RoundTrip3
import Verif.SerLemmas
import Verif.Serialise
import Verif.Simplex
import Verif.SimplexCode
import Verif.SimplexGeo
import Verif.SimplexJump
import Verif.SimplexLemmas
import Verif.SimplexMore
import Verif.SimplexSpec
import Verif.SimplexSuper
import Verif.SimplexSuper2
import Verif.SimplexSuper3
import Verif.SimplexSuper4
import Verif.Stream
import Verif.StreamLemmas
import Verif.Tile
import Verif.TreeSpec
import Verif.WarpExceed
import Verif.WarpOuter
import Verif.WarpRange
import Verif.WarpRangeLemmas
import Verif.WarpRangeProps
import Verif.WarpRangeSpec
import Verif.FloatModifiers
import Verif.FloatModifiersLemmas
import Verif.FloatModifiersProps
import Verif.FloatModifiersProps2
import Verif.FloatFractal
import Verif.FloatFractalProps
import Verif.Wiki
import Verif.WikiProps
import Verif.EditorMenu
import Verif.EditorMenuLemmas
import Verif.EditorMenuProps
import Verif.DemoTrees
import Verif.FloatWarp
import Verif.FloatWarpLemmas
import Verif.FloatWarpProps
import Verif.Culling
import Verif.CullingSpec
import Verif.CullingProps
import Verif.Levels
import Verif.LevelsProps
import Verif.FloatCellular
import Verif.FloatCellularLemmas
import Verif.FloatCellularAxis
import Verif.FloatCellularSpec
import Verif.FloatCellularMetric
import Verif.FloatCellularCells
import Verif.FloatCellularProps
import Verif.Launch
import Verif.LaunchProps
import Verif.Camera
import Verif.CameraProps
import Verif.FloatSimplex
import Verif.FloatSimplexLemmas
import Verif.FloatSimplexGrid
import Verif.FloatSimplexProps
import Verif.SimplexLipschitz
import Verif.SimplexRateProps
import Verif.LatticeLipschitz
import Verif.LatticeRateProps
import Verif.RateProps
import Verif.CellularRateProps
import Verif.RateMoreProps
import Verif.RateWarpProps
import Verif.ZoomProps
import Verif.SeedShiftProps
import Verif.TreeLawProps
