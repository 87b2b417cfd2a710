import Verif.Triang
import Verif.Topo
import Verif.Extrude
import Verif.Grid
import Mathlib.Analysis.Real.Pi.Bounds

/-!
# Model of recipes: helix, disk, regular cylinder, perforated cube (`recipes.py` 19-80, 151-160, 338-411)

The triangulation of points is a parameter. The conversion to second order (`W6_to_W18`, `TET4_to_TET10`) is not part of this
model (see C12).
-/

namespace PM

/-! ## helix -/

/-- A value given or else computed. -/
def orElseGet {α : Type} (x : Option α) (y : Option α) : Option α :=
  match x with
  | some v => some v
  | none => y

noncomputable section

/-- Division of Python numbers: `none` is the `ZeroDivisionError`. -/
def pyDiv (x y : ℝ) : Option ℝ := if y = 0 then none else some (x / y)

/-- The parameters of `circular_helix`, recipes.py 24-28, as `(a, b)`. A missing number in an operation raises: `none`. -/
def helixParams (a b slope pitch : Option ℝ) : Option (ℝ × ℝ) :=
  let b := match pitch with
    | some p => orElseGet b (some (p / 2 / Real.pi))
    | none => b
  match slope with
  | none => a.bind fun a => b.map fun b => (a, b)
  | some s => (orElseGet a (b.map fun b => s * b)).bind fun a => (orElseGet b (pyDiv s a)).map fun b => (a, b)

/-- The curve, recipes.py 30-34. -/
def helixCurve (a b t : ℝ) : V3 ℝ := ⟨a * Real.cos t, a * Real.sin t, b * t⟩

/-- `circular_helix(a, b, slope=slope, pitch=pitch)(t)`. -/
def circularHelix (a b slope pitch : Option ℝ) (t : ℝ) : Option (V3 ℝ) :=
  (helixParams a b slope pitch).map fun q => helixCurve q.1 q.2 t

/-! ## points on circles and masks -/

/-- The point of a circle. -/
def polarPt (r θ : ℝ) : ℝ × ℝ := (r * Real.cos θ, r * Real.sin θ)

/-- `np.hypot`. -/
def hypot (p : ℝ × ℝ) : ℝ := Real.sqrt (p.1 ^ 2 + p.2 ^ 2)

/-- `x[triangles].mean(axis=1)`, `y[triangles].mean(axis=1)` for one triangle. -/
def meanPt (pts : List (ℝ × ℝ)) (t : List Nat) : Option (ℝ × ℝ) :=
  (t.mapM fun (n : Nat) => pts[n]?).map fun (l : List (ℝ × ℝ)) =>
    ((l.map Prod.fst).sum / (l.length : ℝ), (l.map Prod.snd).sum / (l.length : ℝ))

/-- `set_mask(np.hypot(...) < r)` and `get_masked_triangles`, recipes.py 74-78, 375-382: the triangles whose mean is nearer than
`r` are dropped. -/
def maskTris (pts : List (ℝ × ℝ)) (r : ℝ) (tris : Topo) : Option Topo :=
  (tris.mapM fun (t : List Nat) => (meanPt pts t).map fun c => (t, decide (hypot c < r))).map fun l =>
    (l.filter fun q => !q.2).map Prod.fst

/-- The points with a third coordinate 0, recipes.py 79, 383. -/
def liftPts (pts : List (ℝ × ℝ)) : List (V3 ℝ) := pts.map fun p => ⟨p.1, p.2, 0⟩

/-- Triangulation, mask and removal of unused points, recipes.py 72-80, 374-384. -/
def maskedMesh (delaunay : List (ℝ × ℝ) → Topo) (pts : List (ℝ × ℝ)) (r : ℝ) : Option (List (V3 ℝ) × Topo) :=
  (maskTris pts r (delaunay pts)).bind fun T => detach (liftPts pts) T none

/-! ## disk and cylinder -/

/-- The points of `circular_disk`, recipes.py 64-71: `nradii` points for each angle; every second circle is turned by half of
an angle. -/
def diskPoints (nangles nradii : Nat) (rmin rmax : ℝ) : List (ℝ × ℝ) :=
  (linspaceOpen 0 (2 * Real.pi) nangles).flatMap fun (a : ℝ) => (linspace rmin rmax nradii).zipIdx.map fun (q : ℝ × Nat) =>
    polarPt q.1 (if q.2 % 2 = 1 then a + Real.pi / (nangles : ℝ) else a)

/-- `circular_disk`, recipes.py 38-82. -/
def circularDisk (delaunay : List (ℝ × ℝ) → Topo) (nangles nradii : Nat) (rmin rmax : ℝ) : Option (List (V3 ℝ) × Topo) :=
  maskedMesh delaunay (diskPoints nangles nradii rmin rmax) rmin

/-- Rows of three nodes as rowTriples. -/
def rowTriples (T : Topo) : Option (List (Nat × Nat × Nat)) :=
  T.mapM fun (t : List Nat) => match t with
    | [a, b, c] => some (a, b, c)
    | _ => none

/-- `points[:, :2]` as pairs. -/
def flatPts (C : List (V3 ℝ)) : List (ℝ × ℝ) := C.map fun p => (p.x, p.y)

/-- `cylinder` with `regular=True`, `voxelize=False` and `TET4` cells, recipes.py 153-159; `size` is unpacked as radial, angular
and vertical divisions. -/
def cylinderRegular (delaunay : List (ℝ × ℝ) → Topo) (radius : ℝ × ℝ) (h : ℝ) (size : Nat × Nat × Nat) :
    Option (List (List ℝ) × Topo) :=
  (circularDisk delaunay size.2.1 size.1 radius.1 radius.2).bind fun m => (rowTriples m.2).map fun T =>
    extrudeT3TET4 (flatPts m.1) T h size.2.2

/-! ## perforated cube -/

/-- `int(x)`: rounding towards zero. -/
def pyInt (x : ℝ) : ℤ := if 0 ≤ x then ⌊x⌋ else ⌈x⌉

/-- Numbers of subdivisions, recipes.py 353-357. -/
def cubeShape (lx ly : ℝ) (lmax : Option ℝ) : Option (Nat × Nat) :=
  match lmax with
  | none => some (4, 4)
  | some l => if l = 0 then none else some ((max (pyInt (lx / l)) 4).toNat, (max (pyInt (ly / l)) 4).toNat)

/-- The radius inside of which the points of the grid are dropped, recipes.py 359-362. -/
def cubeClear (radius : ℝ) (lmax : Option ℝ) : ℝ :=
  match lmax with
  | some l => radius + l
  | none => radius * (11 / 10)

/-- Number of points on the circle, recipes.py 365-369. -/
def cubeAngles (radius : ℝ) (nangles : Option Nat) (lmax : Option ℝ) : Nat :=
  match nangles, lmax with
  | some n, _ => n
  | none, some l => (max (pyInt (2 * Real.pi * radius / l)) 8).toNat
  | none, none => 16

/-- Number of layers, recipes.py 386-389; a negative number counts as none. -/
def cubeLayers (lz : ℝ) (lmax : Option ℝ) : Nat :=
  match lmax with
  | some l => (pyInt (lz / l)).toNat
  | none => 4

/-- The points of the grid that are kept, recipes.py 358-363. -/
def cubeGridPoints (lx ly radius : ℝ) (lmax : Option ℝ) : Option (List (ℝ × ℝ)) :=
  (cubeShape lx ly lmax).bind fun s =>
    (grid { size := some [lx, ly], shape := some [s.1, s.2], centralize := true } (.tuple [2, 2]) none).map fun g =>
      (g.1.map fun (r : List ℝ) => (r.getD 0 0, r.getD 1 0)).filter fun p => decide (cubeClear radius lmax < hypot p)

/-- The points on the circle, recipes.py 370-372. -/
def cubeCircle (radius : ℝ) (n : Nat) : List (ℝ × ℝ) := (linspaceOpen 0 (2 * Real.pi) n).map fun (a : ℝ) => polarPt radius a

/-- The triangles of the section, recipes.py 352-384. -/
def cubeSection (delaunay : List (ℝ × ℝ) → Topo) (lx ly radius : ℝ) (nangles : Option Nat) (lmax : Option ℝ) :
    Option (List (V3 ℝ) × Topo) :=
  (cubeGridPoints lx ly radius lmax).bind fun g =>
    maskedMesh delaunay (g ++ cubeCircle radius (cubeAngles radius nangles lmax)) radius

/-- `perforated_cube` with `order=1`, recipes.py 352-394. -/
def perforatedCube (delaunay : List (ℝ × ℝ) → Topo) (lx ly lz radius : ℝ) (nangles : Option Nat) (lmax : Option ℝ)
    (prismatic : Bool) : Option (List (List ℝ) × Topo) :=
  (cubeSection delaunay lx ly radius nangles lmax).bind fun m => (rowTriples m.2).map fun T =>
    if prismatic then extrudeT3W6 (flatPts m.1) T lz (cubeLayers lz lmax)
    else extrudeT3TET4 (flatPts m.1) T lz (cubeLayers lz lmax)

end

end PM
