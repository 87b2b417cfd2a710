import Verif.Extrude
import Verif.Geom
import Mathlib.Algebra.Order.Group.Unbundled.Abs
import Mathlib.Algebra.Order.AbsoluteValue.Basic

/-!
# Triangles of the plane and polygons

Models `utils/tri.py` and `is_cw`, `is_ccw` of `utils/utils.py`. Element coordinates (arrays of shape (3, 2)) are
triples of points. Arrays of them are lists.
-/

namespace PM

/-- A point of the plane: a row of a coordinate array with two columns (or the first two columns of one with three,
the others are not read by the functions modelled here). -/
@[ext] structure P2 (K : Type) where
  x : K
  y : K
deriving DecidableEq, Repr

/-- Three corners: one `ecoords` array. -/
@[ext] structure Tri (K : Type) where
  p1 : P2 K
  p2 : P2 K
  p3 : P2 K
deriving DecidableEq, Repr

/-- Natural coordinates of a triangle. -/
@[ext] structure N3 (K : Type) where
  n1 : K
  n2 : K
  n3 : K
deriving DecidableEq, Repr

section
variable {K : Type} [Field K]

/-- The expression summed in `area_tri`, tri.py 106-110, and in its bulk variants, 196-203, 230-239. -/
def triArea2 (t : Tri K) : K :=
  (t.p2.x * t.p3.y - t.p3.x * t.p2.y) + (t.p3.x * t.p1.y - t.p1.x * t.p3.y) + (t.p1.x * t.p2.y - t.p2.x * t.p1.y)

/-- `area_tri`, tri.py 86-111. -/
def areaTri (t : Tri K) : K := triArea2 t / 2

/-- `area_tri_bulk`, tri.py 207-240. Each iteration of the parallel loop writes its own entry. -/
def areaTriBulk (ts : List (Tri K)) : List K := (ts.map triArea2).map fun a => a / 2

/-- `areas_tri`, tri.py 171-204. -/
def areasTri (ts : List (Tri K)) : K := (ts.foldl (fun A t => A + triArea2 t) 0) / 2

/-- `area_tri_u`, tri.py 243-252. -/
def areaTriU (x1 y1 x2 y2 x3 y3 : K) : K := (x2 * y3 - x3 * y2 + x3 * y1 - x1 * y3 + x1 * y2 - x2 * y1) / 2

/-- `area_tri_u2`, tri.py 255-265. -/
def areaTriU2 (x1 x2 x3 y1 y2 y3 : K) : K := (x2 * y3 - x3 * y2 + x3 * y1 - x1 * y3 + x1 * y2 - x2 * y1) / 2

/-- `center_tri_2d`, tri.py 71-75. -/
def centerTri (t : Tri K) : P2 K := ⟨(t.p1.x + t.p2.x + t.p3.x) / 3, (t.p1.y + t.p2.y + t.p3.y) / 3⟩

/-- `shp_tri_loc`, tri.py 56-58, and `loc_to_nat_tri`, 374-383. -/
def shpTri (l : P2 K) : N3 K := ⟨1 - l.x - l.y, l.x, l.y⟩

/-- `loc_to_nat_tri`, tri.py 373-382. -/
def locToNatTri (l : P2 K) : N3 K := shpTri l

/-- `nat_to_glob_tri`, tri.py 361-370: `ecoords.T @ ncoord`. -/
def natToGlobTri (n : N3 K) (t : Tri K) : P2 K :=
  ⟨t.p1.x * n.n1 + t.p2.x * n.n2 + t.p3.x * n.n3, t.p1.y * n.n1 + t.p2.y * n.n2 + t.p3.y * n.n3⟩

/-- `loc_to_glob_tri`, tri.py 268-277: `gcoords.T @ shp_tri_loc(lcoord)`. -/
def locToGlobTri (l : P2 K) (t : Tri K) : P2 K := natToGlobTri (shpTri l) t

/-- `lcoords_tri`, tri.py 41-43. -/
def lcoordsTri : Tri K := ⟨⟨0, 0⟩, ⟨1, 0⟩, ⟨0, 1⟩⟩

/-- `nat_to_loc_tri`, tri.py 385-394: `acoord.T @ lcoords_tri()`. -/
def natToLocTri (n : N3 K) : P2 K := natToGlobTri n lcoordsTri

/-- `np.linalg.inv` of the matrix with rows `a b c` times a vector, by the rule of Cramer; `none` for a singular
matrix (`LinAlgError`). -/
def solve3 [DecidableEq K] (a b c v : V3 K) : Option (V3 K) :=
  let d := V3.det3 a b c
  if d = 0 then none
  else
    let p := V3.cross b c
    let q := V3.cross c a
    let r := V3.cross a b
    some ⟨(p.x * v.x + q.x * v.y + r.x * v.z) / d, (p.y * v.x + q.y * v.y + r.y * v.z) / d,
      (p.z * v.x + q.z * v.y + r.z * v.z) / d⟩

/-- `solve3` solves the system, so it is the inverse applied to the vector. -/
theorem solve3_spec [DecidableEq K] {a b c v s : V3 K} (h : solve3 a b c v = some s) :
    V3.dot a s = v.x ∧ V3.dot b s = v.y ∧ V3.dot c s = v.z := by
  unfold solve3 at h
  by_cases hd : V3.det3 a b c = 0
  · rw [if_pos hd] at h; cases h
  · rw [if_neg hd] at h
    cases Option.some.inj h
    clear h
    generalize hD : V3.det3 a b c = d at hd ⊢
    simp only [V3.dot, V3.cross, V3.det3] at hD ⊢
    refine ⟨?_, ?_, ?_⟩ <;> field_simp <;> rw [← hD] <;> ring

/-- `glob_to_loc_tri`, tri.py 280-292: `monoms` has the rows `(1, x_i, y_i)`, `coeffs` is its inverse,
`shp = coeffs @ (1, x, y)`, and the result is `lcoords_tri().T @ shp`. -/
def globToLocTri [DecidableEq K] (g : P2 K) (t : Tri K) : Option (P2 K) :=
  (solve3 ⟨1, t.p1.x, t.p1.y⟩ ⟨1, t.p2.x, t.p2.y⟩ ⟨1, t.p3.x, t.p3.y⟩ ⟨1, g.x, g.y⟩).map fun s =>
    natToGlobTri ⟨s.x, s.y, s.z⟩ lcoordsTri

end

section
variable {K : Type} [Field K] [LinearOrder K]

/-- `glob_to_nat_tri`, tri.py 295-309. Division by zero (degenerate triangles) gives NaN or infinite in the code and
zero here; all theorems assume non-degenerate triangles. -/
def globToNatTri (g : P2 K) (t : Tri K) : N3 K :=
  let A2 := |t.p2.x * (t.p3.y - t.p1.y) + t.p1.x * (t.p2.y - t.p3.y) + t.p3.x * (t.p1.y - t.p2.y)|
  let n1 := (t.p2.x * t.p3.y - g.x * t.p3.y - t.p3.x * t.p2.y + g.x * t.p2.y + t.p3.x * g.y - t.p2.x * g.y) / A2
  let n2 := (g.x * t.p3.y - t.p1.x * t.p3.y + t.p3.x * t.p1.y - g.x * t.p1.y - t.p3.x * g.y + t.p1.x * g.y) / A2
  ⟨n1, n2, 1 - n1 - n2⟩

/-- The test of `__pip_tri_bulk__`, tri.py 323-332, for one point and one triangle. -/
def pipTri (tol : K) (n : N3 K) : Bool :=
  (decide (-tol < n.n1) && decide (-tol < n.n2) && decide (-tol < n.n3)) &&
  (decide (n.n1 < 1 + tol) && decide (n.n2 < 1 + tol) && decide (n.n3 < 1 + tol))

/-- `_pip_tri_bulk_`, tri.py 335-338: a table of tests. -/
def pipTriBulk (tol : K) (points : List (P2 K)) (ts : List (Tri K)) : List (List Bool) :=
  points.map fun p => ts.map fun t => pipTri tol (globToNatTri p t)

/-- `cells_coords` for triangles given by their nodes. -/
def triCoords (points : List (P2 K)) (r : Nat × Nat × Nat) : Option (Tri K) :=
  match points[r.1]?, points[r.2.1]?, points[r.2.2]? with
  | some a, some b, some c => some ⟨a, b, c⟩
  | _, _, _ => none

/-- One iteration of the outer loop of `localize_points`, tri.py 404-411: the first triangle for which the largest
natural coordinate is at most 1, with the natural coordinates. (Breaking out of the inner loop makes it sequential.)
No hit is `none`; the code leaves `-1` and zeros. -/
def localizeFrom (g : P2 K) : List (Tri K) → Nat → Option (Nat × N3 K)
  | [], _ => none
  | t :: ts, i =>
    let n := globToNatTri g t
    if max n.n1 (max n.n2 n.n3) ≤ 1 then some (i, n) else localizeFrom g ts (i + 1)

/-- `localize_points`, tri.py 397-412. `none`: a node of a triangle is out of range. -/
def localizePoints (points : List (P2 K)) (tris : List (Nat × Nat × Nat)) (coords : List (P2 K)) :
    Option (List (Option (Nat × N3 K))) :=
  (tris.mapM (triCoords points)).map fun ts => coords.map fun g => localizeFrom g ts 0

/-- `get_points_inside_triangles`, tri.py 415-424: 1 where an index was found, 0 elsewhere. -/
def pointsInside (points : List (P2 K)) (tris : List (Nat × Nat × Nat)) (coords : List (P2 K)) : Option (List Bool) :=
  (localizePoints points tris coords).map fun l => l.map Option.isSome

/-- The sum in `is_cw`, utils.py 988-993. -/
def polyArea2 (pts : List (P2 K)) : K :=
  (List.range pts.length).foldl (fun area i =>
    let j := (i + 1) % pts.length
    let p := pts.getD i ⟨0, 0⟩
    let q := pts.getD j ⟨0, 0⟩
    area + (p.x * q.y - q.x * p.y)) 0

/-- `is_cw`, utils.py 983-994. -/
def isCw (pts : List (P2 K)) : Bool := decide (polyArea2 pts < 0)

/-- `is_ccw`, utils.py 997-1001. -/
def isCcw (pts : List (P2 K)) : Bool := !isCw pts

end

end PM
