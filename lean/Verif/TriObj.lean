import Verif.Triang
import Verif.Elevate

/-!
# Model: triangulation objects and edges of triangle meshes

`triangulate` with its three backends and with given triangles or objects (`triang.py` 93-97, 137-173), `triobj_to_mpl`,
`get_triobj_data`, `is_triobj` (`triang.py` 176-228), `TriMesh.edges` (`trimesh.py` 144-169), `QuadraticTriangle.from_TriMesh`
(`polygon.py` 73-82).

The triangulations of the three libraries are functions of the points (`Engines`). Points are rows of two or three coordinates. An
object holds what the functions read from it; that matplotlib keeps given triangles as they are is trusted.
-/

namespace PM

/-- The backends of `triangulate`. -/
inductive Backend
  | mpl
  | scipy
  | pv
deriving DecidableEq

/-- Objects given as a triangulation: a scipy `Delaunay`, a matplotlib `Triangulation` (with the mask of its triangles), a
`pyvista.PolyData` with its points and triangles, anything else. -/
inductive TriObj (K : Type) where
  | scipy (points : List (List K)) (tris : Topo)
  | mpl (x y : List K) (tris : Topo) (mask : Option (List Bool))
  | pv (points : List (List K)) (tris : Topo)
  | other
deriving DecidableEq

/-- The triangulations of the libraries: `tri.Triangulation(x, y)`, `scipy.spatial.Delaunay(points)`, `delaunay_2d()` of PyVista,
which looks at the points only. -/
structure Engines (K : Type) where
  mpl : List (List K) → Topo
  scipy : List (List K) → Topo
  pv : List (List K) → Topo

section
variable {K : Type}

/-- `points[:, 0:2]`; rows that are too short raise. -/
def planeRows (points : List (List K)) : Option (List (List K)) :=
  points.mapM fun (r : List K) => match r with
    | x :: y :: _ => some [x, y]
    | _ => none

/-- `np.vstack((x, y)).T`. -/
def stackXY (x y : List K) : List (List K) := List.zipWith (fun a b => [a, b]) x y

/-- `points[:, 0]`, `points[:, 1]` as a matplotlib object with triangles. -/
def mplObj (points : List (List K)) (tris : Topo) : Option (TriObj K) :=
  (planeRows points).map fun p => .mpl (p.filterMap fun r => r[0]?) (p.filterMap fun r => r[1]?) tris none

/-- `is_triobj`, triang.py 216-226, in an environment with PyVista: other objects give `None`. -/
def isTriobj : TriObj K → Option Bool
  | .scipy _ _ => some true
  | .mpl _ _ _ _ => some true
  | .pv _ _ => some true
  | .other => none

/-- `get_triobj_data`, triang.py 188-213. The triangles of a `PolyData` are made again from its points. -/
def triobjData (E : Engines K) (trim2d : Bool) : TriObj K → Option (List (List K) × Topo)
  | .scipy points tris => some (points, tris)
  | .mpl x y tris _ => some (stackXY x y, tris)
  | .pv points _ => if trim2d then (planeRows points).map fun p => (p, E.pv points) else some (points, E.pv points)
  | .other => none

/-- `triangulate(points=points, triangles=triangles, backend=b)`, triang.py 137-168. PyVista wants points with three
coordinates. -/
def triangulatePts (E : Engines K) (b : Backend) (points : List (List K)) (triangles : Option Topo) :
    Option (List (List K) × Topo × TriObj K) :=
  match triangles with
  | some t => if b = .mpl then (mplObj points t).map fun o => (points, t, o) else none
  | none =>
    match b with
    | .mpl => (planeRows points).bind fun p => (mplObj points (E.mpl p)).map fun o => (points, E.mpl p, o)
    | .scipy => (planeRows points).map fun p => (points, E.scipy p, .scipy p (E.scipy p))
    | .pv => if points.all fun r => r.length == 3 then some (points, E.pv points, .pv points (E.pv points)) else none

/-- `triangulate(triobj=o, backend=b)`, triang.py 95-96: the object is returned as it is. -/
def triangulateObj (E : Engines K) (_b : Backend) (trim2d : Bool) (o : TriObj K) : Option (List (List K) × Topo × TriObj K) :=
  (triobjData E trim2d o).map fun d => (d.1, d.2, o)

/-- `triobj_to_mpl`, triang.py 173-185. -/
def triobjToMpl (E : Engines K) (trim2d : Bool) (o : TriObj K) : Option (TriObj K) :=
  if isTriobj o = some true then
    match o with
    | .mpl x y t m => some (.mpl x y t m)
    | o => (triobjData E trim2d o).bind fun d => (triangulatePts E .mpl d.1 (some d.2)).map fun r => r.2.2
  else none

end

/-- `TriMesh.edges(return_cells=True)`, trimesh.py 144-169, of a mesh with the topology `topo`; without the option the second part
is dropped. -/
def triMeshEdges (topo : Topo) : Option (List (List Nat) × List (List Nat)) := triLines topo

/-- The arguments of `QuadraticTriangle.from_TriMesh`. -/
inductive FromTri (K : Type) where
  | mesh (coords : List (V3 K)) (topo : Topo)
  | arrays (coords : List (V3 K)) (topo : Topo)
  | nothing

/-- `QuadraticTriangle.from_TriMesh`, polygon.py 73-82. For a mesh it calls `TriMesh.coords()`, the method of the class without an
object, which raises. -/
def fromTriMesh {K : Type} [Field K] : FromTri K → Option (List (V3 K) × Topo)
  | .mesh _ _ => none
  | .arrays coords topo => t3ToT6 coords topo
  | .nothing => none

end PM
