import Verif.Tri
import Verif.Frames
import Verif.Basic

/-!
# Model: inscribed circles, offset triangles, data at points, tests of planarity

`utils/tri.py` 114-168, 427-482 and `utils/space.py` 291-345.
-/

namespace PM

open V3

noncomputable section

/-- `inscribed_radius`, tri.py 114-142; `none`: three coincident points (0/0). -/
def inscribedRadius (p0 p1 p2 : V3 ℝ) : Option ℝ :=
  let a := vnorm (p1 - p0)
  let b := vnorm (p2 - p1)
  let c := vnorm (p2 - p0)
  let s := (a + b + c) / 2
  open Classical in if s = 0 then none else some (Real.sqrt ((s - a) * (s - b) * (s - c) / s))

/-- `inscribed_radii`, tri.py 145-168. Each iteration of the parallel loop writes its own entry. -/
def inscribedRadii (ts : List (V3 ℝ × V3 ℝ × V3 ℝ)) : List (Option ℝ) := ts.map fun t => inscribedRadius t.1 t.2.1 t.2.2

end

section
variable {K : Type} [Field K]

/-- `cells_coords` (utils.py 254-287) for a triangle given by its nodes. -/
def tri3Coords (points : List (V3 K)) (r : Nat × Nat × Nat) : Option (V3 K × V3 K × V3 K) :=
  (points[r.1]?).bind fun a => (points[r.2.1]?).bind fun b => (points[r.2.2]?).map fun c => (a, b, c)

/-- `ncoords = ncenter + dn * alpha`, tri.py 479: an entry of the matrix. -/
def offsetEntry (alpha : K) (i j : Nat) : K := 1 / 3 + ((if i = j then 1 else 0) - 1 / 3) * alpha

/-- A row of `ncoords @ cellcoords[iE]`, tri.py 480. -/
def offsetCorner (alpha : K) (t : V3 K × V3 K × V3 K) (i : Nat) : V3 K :=
  offsetEntry alpha i 0 • t.1 + offsetEntry alpha i 1 • t.2.1 + offsetEntry alpha i 2 • t.2.2

/-- `_offset_tri_`, tri.py 470-482. `none`: a node or a factor out of range. Each iteration of the parallel loop writes
its own entry. -/
def offsetTriArr (points : List (V3 K)) (tris : List (Nat × Nat × Nat)) (alpha : List K) :
    Option (List (V3 K × V3 K × V3 K)) :=
  tris.zipIdx.mapM fun (x : (Nat × Nat × Nat) × Nat) => (tri3Coords points x.1).bind fun t => (alpha[x.2]?).map fun a =>
    (offsetCorner a t 0, offsetCorner a t 1, offsetCorner a t 2)

/-- The argument `data` of `offset_tri`: an array of floats, a float, or something else. -/
inductive OffsetData (K : Type)
  | arr (a : List K)
  | float (a : K)
  | other

/-- `offset_tri_uniform`, tri.py 456-467: `ncenter_tri` takes no argument, so compiling the call `ncenter_tri(coords.dtype)`
fails for every input. -/
def offsetTriUniform (_points : List (V3 K)) (_tris : List (Nat × Nat × Nat)) (_alpha : K) :
    Option (List (V3 K × V3 K × V3 K)) := none

variable [LinearOrder K]

/-- `alpha.max()`, tri.py 446; `none`: the maximum of an empty array is an error. -/
def listMax : List K → Option K
  | [] => none
  | a :: l => match listMax l with
    | none => some a
    | some b => some (max a b)

/-- The factors used, tri.py 445-448. -/
def offsetFactors (data : List K) : Option (List K) :=
  (listMax (data.map fun x => |x|)).map fun m =>
    if 1 < m then (data.map fun x => |x|).map fun a => a / m else data.map fun x => |x|

/-- `offset_tri`, tri.py 443-454. -/
def offsetTri (points : List (V3 K)) (tris : List (Nat × Nat × Nat)) : OffsetData K → Option (List (V3 K × V3 K × V3 K))
  | .arr data => (offsetFactors data).bind fun alpha => offsetTriArr points tris alpha
  | .float a => offsetTriUniform points tris (min |a| 1)
  | .other => none

/-- `np.sum(data[triangles[i], j] * shp[iC])` for all columns `j`, tri.py 438; `none`: a node without data. -/
def interpRow (data : List (List K)) (nD : Nat) (r : Nat × Nat × Nat) (n : N3 K) : Option (List K) :=
  (data[r.1]?).bind fun a => (data[r.2.1]?).bind fun b => (data[r.2.2]?).map fun c =>
    (List.range nD).map fun j => a.getD j 0 * n.n1 + b.getD j 0 * n.n2 + c.getD j 0 * n.n3

/-- The writes of `approx_data_to_points`, tri.py 434-439: row `i`, where `i` is the number of the triangle. -/
def approxWrites (tris : List (Nat × Nat × Nat)) (data : List (List K)) (nD : Nat) (loc : List (Option (Nat × N3 K))) :
    Option (List (Nat × List K)) :=
  (loc.filterMap id).mapM fun (x : Nat × N3 K) => (tris[x.1]?).bind fun r => (interpRow data nD r x.2).bind fun v =>
    if x.1 < loc.length then some (x.1, v) else none

/-- `approx_data_to_points`, tri.py 427-440: `sched` is the order in which the writes of the parallel loop take place.
`none`: a node out of range, or a write behind the end of the result. -/
def approxData (points : List (P2 K)) (tris : List (Nat × Nat × Nat)) (data : List (List K)) (nD : Nat)
    (coords : List (P2 K)) (defval : K) (sched : List (Nat × List K) → List (Nat × List K)) : Option (List (List K)) :=
  (localizePoints points tris coords).bind fun loc => (approxWrites tris data nD loc).map fun w =>
    (List.range coords.length).map (runW (sched w) fun _ => List.replicate nD defval)

end

noncomputable section

/-- `normalize2d` of neumann, for one row. What it makes of a zero row is not documented: NaN (`none`), or zero if
`keep` is true. -/
def normalizeRow (keep : Bool) (v : V3 ℝ) : Option (V3 ℝ) :=
  match normalize v with
  | some e => some e
  | none => if keep then some 0 else none

/-- `is_line`, space.py 291-315: `c` are the normalized differences from the first point, `d` the last less the first
of them. A NaN makes the comparison false; an empty array is an error (`none`). -/
def isLine (keep : Bool) (coords : List (V3 ℝ)) (tol : ℝ) : Option Prop :=
  match coords with
  | [] => none
  | p0 :: rest => some <| match (p0 :: rest).mapM fun (p : V3 ℝ) => normalizeRow keep (p + -p0) with
    | some c => 0 ≤ tol ∧ ∀ v ∈ c.tail, |dot v (c.getD rest.length 0 - c.getD 0 0)| ≤ tol
    | none => False

/-- The three points chosen, space.py 335-339: the first one, the one furthest from it, and the one with the largest sum of
distances from these two. -/
def planarInds (coords : List (V3 ℝ)) : Option (V3 ℝ × V3 ℝ × V3 ℝ) :=
  (coords[0]?).bind fun a => (argmax (distancesFrom coords a)).bind fun iB => (coords[iB]?).bind fun b =>
    (argmax (List.zipWith (fun x y => x + y) (distancesFrom coords a) (distancesFrom coords b))).bind fun iC =>
      (coords[iC]?).map fun c => (a, b, c)

/-- `is_planar`, space.py 318-345: `d` is the third axis of the frame of the three chosen points. If it is NaN the answer is
`False`; an empty array is an error (`none`). -/
def isPlanar (coords : List (V3 ℝ)) (tol : ℝ) : Option Prop :=
  (planarInds coords).map fun t => match frameOfPlane [t.1, t.2.1, t.2.2] with
    | some (_, F) => 0 ≤ tol ∧ ∀ p ∈ coords.tail, |dot p F.k| ≤ tol
    | none => False

end

end PM
