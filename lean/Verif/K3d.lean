import Verif.Walk
import Verif.Skin
import Verif.Simplices
import Verif.Extremes

/-!
# Model: drawings with K3D

`polydata.py` 1919-2020 (`to_k3d`). Appearance other than sides and edges is not modelled, nor is the rounding to single precision. All frames are the
ambient one.
-/

namespace PM

/-- Kinds of objects of a scene: lines, faces (with a value of `side`), edges of faces. -/
inductive K3dKind
  | lines
  | faces (side : Option String)
  | wire
deriving DecidableEq

/-- An object of a scene: `k3d.lines(c, t, ...)`, `k3d.mesh(c, t, ...)`, with `attribute` and `color_range`. -/
structure K3dItem where
  kind : K3dKind
  pts : List (V3 ℝ)
  cells : Topo
  attr : Option (List ℝ)
  range : Option (ℝ × ℝ)

noncomputable section

/-- `[scalars.min() - 1, scalars.max() + 1]`, polydata.py 1959-1960; no values are an error. -/
def k3dRange (s : List ℝ) : Option (ℝ × ℝ) :=
  match s with
  | [] => none
  | a :: l => some (l.foldl min a - 1, l.foldl max a + 1)

/-- `color_range`, polydata.py 1958-1960, if there are values. -/
def k3dRanges (scalars : Option (List ℝ)) : Option (Option (ℝ × ℝ)) :=
  match scalars with
  | some d => (k3dRange d).map some
  | none => some none

/-- `detach_mesh_data_bulk` or `detach_mesh_bulk`, polydata.py 1979-1986, 1992-1997, 2011-2016. -/
def k3dDetach (coords : List (V3 ℝ)) (topo : Topo) (scalars : Option (List ℝ)) : Option (List (V3 ℝ) × Option (List ℝ) × Topo) :=
  match scalars with
  | some d => (detachMeshDataBulk coords topo d).map fun r => (r.1, some r.2.1, r.2.2)
  | none => (detachMeshBulk coords topo).map fun r => (r.1, none, r.2)

variable {D : Type}

/-- `b.surface().topology()`, polydata.py 1210-1229, 2010. `pv` is the external surface of the cells of a block. -/
def k3dSurface (query : List (V3 ℝ) → V3 ℝ → Option Nat) (kind : MBlock (V3 ℝ) D → CellKind) (pv : MBlock (V3 ℝ) D → PvSurf)
    (m : List (MBlock (V3 ℝ) D)) (b : MBlock (V3 ℝ) D) : Option Topo :=
  if (cellsUnder m b.path).all fun c => (kind c.1).ndim = 3 then
    (sourcePath m b.path).bind fun s =>
      (meshSurface query (pointsBeneath m s) ((cellsUnder m b.path).map fun c => pv c.1)).map Prod.snd
  else none

/-- The objects of faces, polydata.py 2000-2009, `side` is the entry of the configuration of the block. -/
def k3dSides (side : Option String) : List K3dKind :=
  match side with
  | some s => if s.toLower = "both" then [.faces (some "front"), .faces (some "back")] else [.faces (some s)]
  | none => [.faces none]

/-- The objects drawn for a block, polydata.py 1976-2020. -/
def k3dBlock (query : List (V3 ℝ) → V3 ℝ → Option Nat) (kind : MBlock (V3 ℝ) D → CellKind) (pv : MBlock (V3 ℝ) D → PvSurf)
    (side : MBlock (V3 ℝ) D → Option String) (edges : Bool) (scalars : Option (List ℝ)) (range : Option (ℝ × ℝ))
    (m : List (MBlock (V3 ℝ) D)) (coords : List (V3 ℝ)) (b : MBlock (V3 ℝ) D) (c : CData D) : Option (List K3dItem) :=
  match (kind b).ndim with
  | 1 => (k3dDetach coords c.topo scalars).map fun r => [⟨.lines, r.1, r.2.2, r.2.1, range⟩]
  | 2 => (toTriangles (kind b) c.topo).bind fun topo => (k3dDetach coords topo scalars).map fun r =>
      ((k3dSides (side b)).map fun k => ⟨k, r.1, r.2.2, r.2.1, range⟩) ++ if edges then [⟨.wire, r.1, r.2.2, none, none⟩] else []
  | _ => (k3dSurface query kind pv m b).bind fun topo => (k3dDetach coords topo scalars).map fun r =>
      [⟨.faces (side b), r.1, r.2.2, r.2.1, range⟩] ++ if edges then [⟨.wire, r.1, r.2.2, none, none⟩] else []

/-- `to_k3d`, polydata.py 1919-2020, called on the block with path `p`: the objects added to the scene. -/
def toK3d (query : List (V3 ℝ) → V3 ℝ → Option Nat) (kind : MBlock (V3 ℝ) D → CellKind) (pv : MBlock (V3 ℝ) D → PvSurf)
    (side : MBlock (V3 ℝ) D → Option String) (edges : Bool) (scalars : Option (List ℝ)) (m : List (MBlock (V3 ℝ) D)) (p : List Nat) :
    Option (List K3dItem) :=
  (sourcePath m p).bind fun s => (k3dRanges scalars).bind fun range =>
      ((cellsUnder m p).mapM fun c => k3dBlock query kind pv side edges scalars range m (pointsBeneath m s) c.1 c.2).map List.flatten

end

end PM
