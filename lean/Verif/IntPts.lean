import Verif.LocateTri
import Verif.Locate
import Verif.Extrude
import Verif.EvalPts

/-!
# Model: points in arrays of integers

The loops that write into arrays of the type of the given points (`dtype=points.dtype`): natural coordinates (utils/tri.py 295-351, utils/tet.py
69-144) with the searches that use them (cell.py 841-865, 970-1087), and extrusion (extrude.py). A number stored in an array of integers is cut
off towards zero (`truncK`); the arithmetic in between is that of floating point numbers.
-/

namespace PM

section
variable {K : Type} [Field K] [LinearOrder K] [FloorRing K]

/-- Storing a number in an array of integers (`int`) or of floating point numbers. -/
def storeAs (int : Bool) (x : K) : K := if int = true then truncK x else x

/-- `np.array([n1, n2, 1 - n1 - n2], dtype=gcoord.dtype)`, tri.py 309. -/
def N3.storeAs (int : Bool) (n : N3 K) : N3 K := ⟨PM.storeAs int n.n1, PM.storeAs int n.n2, PM.storeAs int n.n3⟩

/-- `np.array([v1, v2, v3, 1 - v1 - v2 - v3], dtype=gcoord.dtype)`, tet.py 94. -/
def N4.storeAs (int : Bool) (n : N4 K) : N4 K :=
  ⟨PM.storeAs int n.n1, PM.storeAs int n.n2, PM.storeAs int n.n3, PM.storeAs int n.n4⟩

/-- `_pip_tri_bulk_`, tri.py 335-338, with 295-320: the natural coordinates are stored twice, by `glob_to_nat_tri` and in the table. -/
def pipTriBulkAs (int : Bool) (tol : K) (points : List (P2 K)) (ts : List (Tri K)) : List (List Bool) :=
  points.map fun p => ts.map fun t => pipTri tol (((globToNatTri p t).storeAs int).storeAs int)

/-- `PolyCell2d.pip`, cell.py 843-865, for points in an array of the given type; `atleast2d` keeps the type. -/
def pipCells2dAs (int : Bool) (coords : List (P2 K)) (topo trimap : Topo) (tol : K) (x : List (P2 K)) : Option (List Bool) :=
  (transformTopology topo trimap 3 0).bind fun tt => (tt.mapM (triOf coords)).map fun ts =>
    (pipTriBulkAs int tol x ts).map fun r => r.any id

/-- `_glob_to_nat_tet_bulk_` and `_glob_to_nat_tet_bulk_knn_`, tet.py 97-105 and 134-144. -/
def natTableAs (int : Bool) (tets : List (Tet K)) (nb : List (List Nat)) (x : List (V3 K)) : Option (List (List (N4 K))) :=
  (x.zip nb).mapM fun q => q.2.mapM fun k => (tets[k]?).map fun t => ((globToNatTet q.1 t).storeAs int).storeAs int

/-- `PolyCell3d.pip`, cell.py 1047-1087, for the candidates `nb` of every point. -/
def pipCells3dAs (int : Bool) (coords : List (V3 K)) (topo tetmap : Topo) (nb : List (List Nat)) (tol : K) (x : List (V3 K)) : Option (List Bool) :=
  (transformTopology topo tetmap 4 0).bind fun tt => (tt.mapM (tetOf coords)).bind fun tets => (natTableAs int tets nb x).map fun nat =>
    nat.map fun ns => (ns.map (pipTet tol)).any id

/-- `lazy=False`. -/
def pipCells3dAllAs (int : Bool) (coords : List (V3 K)) (topo tetmap : Topo) (tol : K) (x : List (V3 K)) : Option (List Bool) :=
  pipCells3dAs int coords topo tetmap (x.map fun _ => List.range (topo.length * tetmap.length)) tol x

/-- `PolyCell3d.locate`, cell.py 970-1045, for the candidates `nb` of every point. The master coordinates are summed up in an array of the type of
`lcoords` (floating point numbers). -/
def locateAs (int : Bool) (sched : List (Nat × Nat) → List (Nat × Nat)) (coords : List (V3 K)) (topo tetmap : Topo) (lcoords : List (V3 K))
    (nb : List (List Nat)) (tol : K) (x : List (V3 K)) : Option (List (Nat × Nat × V3 K)) :=
  (toTetRows topo tetmap).bind fun tt => (tt.mapM (tetOf coords)).bind fun tets => (natTableAs int tets nb x).bind fun nat =>
    searchHits sched (nat.map fun ns => ns.map (pipTet tol)) (locateOne tetmap lcoords nb nat)

/-- The assignments of coordinates of `extrude_T3_TET4` and `extrude_T3_W6`, extrude.py 16, 18-21 and 50, 52-55: the array has the type of the
points. -/
def extrudeCoordsAs (int : Bool) (points : List (K × K)) (h : K) (zres : Nat) : List (List K) :=
  extrudeCoords points zres ((extrudeCoordWrites points h zres).map fun w => (w.1, storeAs int w.2))

/-- `extrude_T3_TET4`, extrude.py 9-40, for points in an array of the given type. -/
def extrudeT3TET4As (int : Bool) (points : List (K × K)) (tris : List (Nat × Nat × Nat)) (h : K) (zres : Nat) : List (List K) × Topo :=
  (extrudeCoordsAs int points h zres, (extrudeT3TET4 points tris h zres).2)

/-- `extrude_T3_W6`, extrude.py 43-66, for points in an array of the given type. -/
def extrudeT3W6As (int : Bool) (points : List (K × K)) (tris : List (Nat × Nat × Nat)) (h : K) (zres : Nat) : List (List K) × Topo :=
  (extrudeCoordsAs int points h zres, (extrudeT3W6 points tris h zres).2)

end

end PM
