import Verif.Extrude
import Verif.Geom
import Verif.Spec
import Mathlib.Analysis.Real.Sqrt

/-!
# Frames of cells, nearest points

Models `utils/space.py` and `tri_glob_to_loc` of `utils/tri.py`, over the real numbers. Coordinates have three columns.
-/

namespace PM

noncomputable section

open V3

/-- `norm` of neumann: the Euclidean norm. -/
def vnorm (v : V3 ℝ) : ℝ := Real.sqrt (dot v v)

open Classical in
/-- `normalize` of neumann: `v / norm(v)`. The zero vector gives NaN entries in the code, `none` here. -/
def normalize (v : V3 ℝ) : Option (V3 ℝ) := if v = 0 then none else some ((1 / vnorm v) • v)

/-- Three axes: the rows of a 3x3 array. -/
@[ext] structure Frame where
  i : V3 ℝ
  j : V3 ℝ
  k : V3 ℝ

/-- The four assignments common to `frames_of_surfaces`, space.py 63-67, and `tr_cell_glob_to_loc_bulk`, 100-104:
`u` and `v` are the vectors from the first node to the second and to the last one. -/
def surfaceFrame (u v : V3 ℝ) : Option Frame :=
  (normalize u).bind fun e1 => (normalize v).bind fun e2 => (normalize (cross e1 e2)).map fun e3 => ⟨e1, cross e3 e1, e3⟩

/-- The vectors used for the frame of one cell. `none`: a node out of range, or a cell with less than two nodes. -/
def surfaceVecs (coords : List (V3 ℝ)) (row : List Nat) : Option (V3 ℝ × V3 ℝ) :=
  (row[0]?).bind fun a => (row[1]?).bind fun b => (row[row.length - 1]?).bind fun c =>
    (coords[a]?).bind fun pa => (coords[b]?).bind fun pb => (coords[c]?).map fun pc => (pb - pa, pc - pa)

/-- `frames_of_surfaces`, space.py 42-68. Each iteration of the parallel loop writes its own entry. -/
def framesOfSurfaces (coords : List (V3 ℝ)) (topo : Topo) : Option (List Frame) :=
  topo.mapM fun row => (surfaceVecs coords row).bind fun uv => surfaceFrame uv.1 uv.2

/-- `cell_center` of the points: the mean. -/
def centroid (pts : List (V3 ℝ)) : V3 ℝ :=
  ⟨(pts.map V3.x).sum / (pts.length : Nat), (pts.map V3.y).sum / (pts.length : Nat), (pts.map V3.z).sum / (pts.length : Nat)⟩

/-- The local coordinates of points relative to a centre: components along the first two axes, space.py 105-108. -/
def localCoords (F : Frame) (c : V3 ℝ) (pts : List (V3 ℝ)) : List (ℝ × ℝ) :=
  pts.map fun p => (dot F.i (p - c), dot F.j (p - c))

/-- `tr_cell_glob_to_loc_bulk`, space.py 71-109, for one cell: local coordinates, centre, frame. -/
def cellGlobToLoc (coords : List (V3 ℝ)) (row : List Nat) : Option (List (ℝ × ℝ) × V3 ℝ × Frame) :=
  (row.mapM fun n => coords[n]?).bind fun pts => (surfaceVecs coords row).bind fun uv =>
    (surfaceFrame uv.1 uv.2).map fun F => (localCoords F (centroid pts) pts, centroid pts, F)

/-- The frame made by `tri_glob_to_loc`, tri.py 525-528: the third axis is not normalized. -/
def triFrame (u v : V3 ℝ) : Option Frame :=
  (normalize u).bind fun e1 => (normalize v).map fun e2 => ⟨e1, cross (cross e1 e2) e1, cross e1 e2⟩

/-- `tri_glob_to_loc`, tri.py 517-533, for one triangle with corners `a b c`: the local coordinates of the corners, the
centre and the frame. -/
def triGlobToLoc (a b c : V3 ℝ) : Option (List (ℝ × ℝ) × V3 ℝ × Frame) :=
  (triFrame (b - a) (c - a)).map fun F => (localCoords F (centroid [a, b, c]) [a, b, c], centroid [a, b, c], F)

/-- `frame_of_plane`, space.py 14-39: the axes are the columns of the result. (`np.int(len(coords) / 2)` is taken as
integer division; `np.int` itself is gone from recent numpy.) -/
def frameOfPlane (coords : List (V3 ℝ)) : Option (V3 ℝ × Frame) :=
  (coords[0]?).bind fun p => (coords[coords.length / 2]?).bind fun q =>
    (surfaceFrame (p - centroid coords) (q - centroid coords)).map fun F => (centroid coords, F)

/-- `np.argmin` of three numbers, as index. -/
def argmin3 (a b c : ℝ) : Nat := if a ≤ b ∧ a ≤ c then 0 else if b ≤ c then 1 else 2

/-- Rows of `np.eye(3)`. -/
def eye3 : Nat → V3 ℝ
  | 0 => ⟨1, 0, 0⟩
  | 1 => ⟨0, 1, 0⟩
  | _ => ⟨0, 0, 1⟩

/-- `_frames_of_lines_auto`, space.py 112-124, for one line with end points `a`, `b`. -/
def lineFrameAuto (a b : V3 ℝ) : Option Frame :=
  (normalize (b - a)).bind fun e1 =>
    let e := eye3 (argmin3 |e1.x| |e1.y| |e1.z|)
    (normalize (e - dot e e1 • e1)).map fun e3 => ⟨e1, cross e3 e1, e3⟩

/-- `_frames_of_lines_ref`, space.py 127-137, for one line and its reference point. -/
def lineFrameRef (a b r : V3 ℝ) : Option Frame :=
  (normalize (b - a)).bind fun e1 =>
    let k := r - a
    (normalize (k - dot e1 k • e1)).map fun e3 => ⟨e1, cross e3 e1, e3⟩

/-- End points of a line: its first and last node. -/
def lineEnds (coords : List (V3 ℝ)) (row : List Nat) : Option (V3 ℝ × V3 ℝ) :=
  (row[0]?).bind fun a => (row[row.length - 1]?).bind fun b =>
    (coords[a]?).bind fun pa => (coords[b]?).map fun pb => (pa, pb)

/-- `frames_of_lines`, space.py 140-175, without reference, with one reference point for all lines, or with one for
each line. -/
inductive RefZ
  | auto
  | one (r : V3 ℝ)
  | each (rs : List (V3 ℝ))

/-- Dispatch of `frames_of_lines`, space.py 165-175. -/
def framesOfLines (coords : List (V3 ℝ)) (topo : Topo) : RefZ → Option (List Frame)
  | .auto => topo.mapM fun row => (lineEnds coords row).bind fun e => lineFrameAuto e.1 e.2
  | .one r => topo.mapM fun row => (lineEnds coords row).bind fun e => lineFrameRef e.1 e.2 r
  | .each rs => topo.zipIdx.mapM fun x => (lineEnds coords x.1).bind fun e => (rs[x.2]?).bind fun r => lineFrameRef e.1 e.2 r

/-- `is_planar_surface`, space.py 178-201. (`diffs[0]` stays zero; `max` of an empty array raises: `none`.) -/
def isPlanarSurface (normals : List (V3 ℝ)) (tol : ℝ) : Option Prop :=
  match normals with
  | [] => none
  | n0 :: rest => some (0 ≤ tol ∧ ∀ n ∈ rest, |dot n n0 - 1| ≤ tol)

/-- `distances_from_point`, space.py 204-211, with the default `normalize=False`. -/
def distancesFrom (coords : List (V3 ℝ)) (p : V3 ℝ) : List ℝ := coords.map fun q => vnorm (q - p)

/-- `distance_matrix`, space.py 214-222. -/
def distanceMatrix (x y : List (V3 ℝ)) : List (List ℝ) := x.map fun a => y.map fun b => vnorm (a - b)

end

/-- `np.argmin`: the index of the first smallest entry; `none` for an empty array (ValueError). -/
def argminFrom {K : Type} [LinearOrder K] : List K → Nat → Option (Nat × K)
  | [], _ => none
  | a :: l, i => match argminFrom l (i + 1) with
    | none => some (i, a)
    | some (j, b) => if a ≤ b then some (i, a) else some (j, b)

/-- `np.argmin`. -/
def argmin {K : Type} [LinearOrder K] (l : List K) : Option Nat := (argminFrom l 0).map Prod.fst

/-- `np.argmax`: the index of the first largest entry. -/
def argmaxFrom {K : Type} [LinearOrder K] : List K → Nat → Option (Nat × K)
  | [], _ => none
  | a :: l, i => match argmaxFrom l (i + 1) with
    | none => some (i, a)
    | some (j, b) => if b ≤ a then some (i, a) else some (j, b)

/-- `np.argmax`. -/
def argmax {K : Type} [LinearOrder K] (l : List K) : Option Nat := (argmaxFrom l 0).map Prod.fst

noncomputable section

/-- `index_of_closest_point` for one target, space.py 242-246, 280-282. -/
def closestPoint (coords : List (V3 ℝ)) (p : V3 ℝ) : Option Nat := argmin (distancesFrom coords p)

/-- `index_of_furthest_point` for one target, space.py 270-274, 285-287. -/
def furthestPoint (coords : List (V3 ℝ)) (p : V3 ℝ) : Option Nat := argmax (distancesFrom coords p)

/-- `index_of_closest_point` for several targets, space.py 247-249: `query` is the KD-tree query with `k = 1`, an
external function of the cloud and one target. -/
def closestPoints (query : List (V3 ℝ) → V3 ℝ → Option Nat) (coords targets : List (V3 ℝ)) : Option (List Nat) :=
  targets.mapM fun p => query coords p

/-- `index_of_furthest_point` for several targets, space.py 275-277. -/
def furthestPoints (coords targets : List (V3 ℝ)) : Option (List Nat) := (distanceMatrix targets coords).mapM argmax

end

end PM
