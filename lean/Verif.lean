import Verif.PropsTopo
import Verif.PropsTransform
import Verif.PropsCells
import Verif.PropsTiling
import Verif.PropsVolumes
import Verif.PropsElevate
import Verif.PropsExtrude
import Verif.PropsGrid
import Verif.PropsGridNamed
import Verif.PropsMesh1d
import Verif.PropsExplode
import Verif.PropsFactors
import Verif.PropsCollect
import Verif.PropsAverages
import Verif.PropsTri
import Verif.PropsPolygon
import Verif.PropsTet
import Verif.PropsFrames
import Verif.PropsShape
import Verif.PropsGenShape
import Verif.PropsQuad
import Verif.PropsVolQ
import Verif.PropsVolW
import Verif.PropsIds
import Verif.PropsPolyData
import Verif.PropsMotion
import Verif.PropsCloud
import Verif.PropsStack
import Verif.PropsMisc
import Verif.PropsLocate
import Verif.PropsAround
import Verif.PropsInp
import Verif.PropsTile
import Verif.PropsConform
import Verif.PropsSkin
import Verif.Plate
import Verif.PropsPlate
import Verif.PropsPlateTet
import Verif.TriMore
import Verif.PropsTriMore
import Verif.Jacobian
import Verif.PropsJacobian
import Verif.Knn
import Verif.PropsKnn
import Verif.LocateTri
import Verif.PropsLocateTri
import Verif.Voxel
import Verif.PropsVoxel
import Verif.Areas
import Verif.PropsAreas
import Verif.Triang
import Verif.PropsTriang
import Verif.Recipes
import Verif.PropsRecipes
import Verif.CellLines
import Verif.PropsCellLines
import Verif.Walk
import Verif.PropsWalk
import Verif.Copy
import Verif.PropsCopy
import Verif.LinePoints
import Verif.PropsLinePoints
import Verif.FrameMesh
import Verif.PropsFrameMesh
import Verif.Monoms
import Verif.PropsMonoms
import Verif.CsrTopo
import Verif.PropsCsrTopo
import Verif.Section
import Verif.PropsSection
import Verif.Stl
import Verif.PropsStl
import Verif.Extremes
import Verif.PropsExtremes
import Verif.Simplices
import Verif.PropsSimplices
import Verif.Database
import Verif.PropsDatabase
import Verif.Exchange
import Verif.PropsExchange
import Verif.NewMesh
import Verif.PropsNewMesh
import Verif.Neigh
import Verif.PropsNeigh
import Verif.EvalPts
import Verif.PropsEvalPts
import Verif.Populate
import Verif.PropsPopulate
import Verif.Pull
import Verif.PropsPull
import Verif.TurnFrames
import Verif.PropsTurnFrames
import Verif.PropsConvexHex
import Verif.PropsGridFaces
import Verif.PropsGridVolumes
import Verif.K3d
import Verif.PropsK3d
import Verif.PropsGridTiles
import Verif.PropsGridLocate
import Verif.Pv
import Verif.PropsPv
import Verif.Tetrahedralize
import Verif.PropsTetrahedralize
import Verif.PropsGridNeigh
import Verif.PropsGridRefine
import Verif.PropsGridPip
import Verif.Lock
import Verif.PropsLock
import Verif.TriObj
import Verif.PropsTriObj
import Verif.RecipeOrder
import Verif.PropsRecipeOrder
import Verif.IntPts
import Verif.PropsIntPts
import Verif.PropsForm
import Verif.CloudMore
import Verif.PropsCloudMore
import Verif.IntMesh
import Verif.PropsIntMesh
import Verif.CellTables
import Verif.PropsCellTables
import Verif.PropsRest
import Verif.FrameCentre
import Verif.PropsFrameCentre
import Verif.FrameCells
import Verif.PropsFrameCells
import Verif.SecProps
import Verif.PropsSecProps
import Verif.FrameSurf
import Verif.PropsFrameSurf
import Verif.Lcenter
import Verif.PropsLcenter
import Verif.Small
import Verif.PropsSmall
import Verif.Readers
import Verif.PropsReaders
import Verif.KnnCall
import Verif.PropsKnnCall
import Verif.PropsGridArgs
import Verif.Attrs
import Verif.PropsAttrs
import Verif.InpText
import Verif.PropsInpText
import Verif.Convert
import Verif.PropsConvert
import Verif.PropsExtrudeFit
import Verif.PropsGridFit
import Verif.TopoOpts
import Verif.PropsTopoOpts
import Verif.PlotCall
import Verif.PropsPlotCall
import Verif.PropsMonomsCall
import Verif.PropsMeshExact
import Verif.PropsMiscExact
import Verif.PropsConformExact
import Verif.PropsGeoExact
import Verif.PropsWalkExact
import Verif.PropsFoundExact
import Verif.PropsDataExact
import Verif.PropsRecipeExact
import Verif.PropsGridRefineBins
import Verif.PropsLockExact
import Verif.PropsFrameShare
import Verif.PropsCentreExact
import Verif.Compiled
import Verif.PropsCompiled
import Verif.PropsGridEuler
import Verif.PropsRoutes
import Verif.PropsDiagExact
import Verif.PropsMoreExact
import Verif.PropsGridTetExact
import Verif.PropsQuadExact
import Verif.PropsTileExact
import Verif.PropsVolExact
import Verif.PropsStateExact
import Verif.PropsAreaExact
import Verif.PropsSkinExact
import Verif.PropsDiskExact
import Verif.PropsMeshFrameExact
import Verif.PropsIntExact
import Verif.PropsMoved
import Verif.PropsTriobjPath
import Verif.PropsSameCells
import Verif.PropsPlateExact
import Verif.PropsPullExact
import Verif.PropsTreeIdsExact
import Verif.PropsParts
import Verif.PropsLazyExact
import Verif.PropsWedgeRule
import Verif.VolBlocks
import Verif.PropsVolBlocks
import Verif.PropsListed
import Verif.PropsNeighExact
import Verif.PropsClosed
import Verif.PropsOutline
import Verif.PropsPlanarExact
import Verif.PropsTrimapExact
import Verif.PropsOutlineGrid
import Verif.Audit
