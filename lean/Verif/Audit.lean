import Verif.PropsTopo
import Verif.PropsTransform
import Verif.PropsCells
import Verif.PropsTiling
import Verif.PropsVolumes
import Verif.PropsElevate
import Verif.PropsExtrude
import Verif.PropsGrid
import Verif.PropsGridNamed
import Verif.PropsMesh1d
import Verif.PropsExplode
import Verif.PropsFactors
import Verif.PropsCollect
import Verif.PropsAverages
import Verif.PropsTri
import Verif.PropsPolygon
import Verif.PropsTet
import Verif.PropsFrames
import Verif.PropsShape
import Verif.PropsGenShape
import Verif.PropsQuad
import Verif.PropsVolQ
import Verif.PropsVolW
import Verif.PropsIds
import Verif.PropsPolyData
import Verif.PropsMotion
import Verif.PropsCloud
import Verif.PropsStack
import Verif.PropsMisc
import Verif.PropsLocate
import Verif.PropsAround
import Verif.PropsInp
import Verif.PropsTile
import Verif.PropsConform
import Verif.PropsSkin
import Verif.PropsPlate
import Verif.PropsPlateTet
import Verif.PropsTriMore
import Verif.PropsJacobian
import Verif.PropsKnn
import Verif.PropsLocateTri
import Verif.PropsVoxel
import Verif.PropsAreas
import Verif.PropsTriang
import Verif.PropsRecipes
import Verif.PropsCellLines
import Verif.PropsWalk
import Verif.PropsCopy
import Verif.PropsLinePoints
import Verif.PropsFrameMesh
import Verif.PropsMonoms
import Verif.PropsCsrTopo
import Verif.PropsSection
import Verif.PropsStl
import Verif.PropsExtremes
import Verif.PropsSimplices
import Verif.PropsDatabase
import Verif.PropsExchange
import Verif.PropsNewMesh
import Verif.PropsNeigh
import Verif.PropsEvalPts
import Verif.PropsPopulate
import Verif.PropsPull
import Verif.PropsTurnFrames
import Verif.PropsConvexHex
import Verif.PropsGridFaces
import Verif.PropsGridVolumes
import Verif.PropsK3d
import Verif.PropsGridTiles
import Verif.PropsGridLocate
import Verif.PropsPv
import Verif.PropsTetrahedralize
import Verif.PropsGridNeigh
import Verif.PropsGridRefine
import Verif.PropsGridPip
import Verif.PropsLock
import Verif.PropsTriObj
import Verif.PropsRecipeOrder
import Verif.PropsIntPts
import Verif.PropsForm
import Verif.PropsCloudMore
import Verif.PropsIntMesh
import Verif.PropsCellTables
import Verif.PropsRest
import Verif.PropsFrameCentre
import Verif.PropsFrameCells
import Verif.PropsSecProps
import Verif.PropsFrameSurf
import Verif.PropsLcenter
import Verif.PropsSmall
import Verif.PropsReaders
import Verif.PropsKnnCall
import Verif.PropsGridArgs
import Verif.PropsAttrs
import Verif.PropsInpText
import Verif.PropsConvert
import Verif.PropsExtrudeFit
import Verif.PropsGridFit
import Verif.PropsTopoOpts
import Verif.PropsPlotCall
import Verif.PropsMonomsCall
import Verif.PropsMeshExact
import Verif.PropsMiscExact
import Verif.PropsConformExact
import Verif.PropsGeoExact
import Verif.PropsWalkExact
import Verif.PropsFoundExact
import Verif.PropsDataExact
import Verif.PropsRecipeExact
import Verif.PropsGridRefineBins
import Verif.PropsLockExact
import Verif.PropsFrameShare
import Verif.PropsCentreExact
import Verif.PropsCompiled
import Verif.PropsGridEuler
import Verif.PropsRoutes
import Verif.PropsDiagExact
import Verif.PropsMoreExact
import Verif.PropsGridTetExact
import Verif.PropsQuadExact
import Verif.PropsTileExact
import Verif.PropsVolExact
import Verif.PropsStateExact
import Verif.PropsAreaExact
import Verif.PropsSkinExact
import Verif.PropsDiskExact
import Verif.PropsMeshFrameExact
import Verif.PropsIntExact
import Verif.PropsMoved
import Verif.PropsTriobjPath
import Verif.PropsSameCells
import Verif.PropsPlateExact
import Verif.PropsPullExact
import Verif.PropsTreeIdsExact
import Verif.PropsParts
import Verif.PropsLazyExact
import Verif.PropsWedgeRule
import Verif.PropsVolBlocks
import Verif.PropsListed
import Verif.PropsNeighExact
import Verif.PropsClosed
import Verif.PropsOutline
import Verif.PropsPlanarExact
import Verif.PropsTrimapExact
import Verif.PropsOutlineGrid
import Lean.Elab.Command
import Lean.Util.CollectAxioms

/-!
# Axioms

The build fails here if a theorem of the project depends on an axiom other than `propext`, `Classical.choice`, `Quot.sound`.
-/

open Lean Elab Command in
run_cmd do
  let env ← getEnv
  let mut n := 0
  let mut used : NameSet := {}
  for (c, i) in env.constants.map₁.toList do
    if (`PM).isPrefixOf c && i matches .thmInfo _ then
      n := n + 1
      for a in ← liftCoreM (collectAxioms c) do
        used := used.insert a
        unless [``propext, ``Classical.choice, ``Quot.sound].contains a do
          throwError "{c} depends on {a}"
  if n < 1000 then throwError "only {n} theorems were seen"
  logInfo m!"{n} theorems, axioms used: {used.toList}"
