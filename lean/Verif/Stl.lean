import Verif.Inp
import Mathlib.Analysis.SpecialFunctions.Pow.Real

/-!
# STL files and bounding boxes, `src/polymesh/io/inp2stl.py`

Numbers are written as decimal strings by the code; here the lines of the file carry the numbers themselves.
-/

namespace PM

/-- `a[i]` of a Python list: negative indices count from the end. -/
def pyGet {α : Type} (a : List α) (i : Int) : Option α :=
  if 0 ≤ i then a[i.toNat]? else if 0 ≤ i + a.length then a[(i + a.length).toNat]? else none

/-- `computeLength`, io/inp2stl.py 47-50. -/
noncomputable def computeLength (v : V3 ℝ) : ℝ := Real.sqrt (v.x * v.x + v.y * v.y + v.z * v.z)

open Classical in
/-- `computeNormal`, io/inp2stl.py 53-68; `none`: division by zero. -/
noncomputable def computeNormal (p1 p2 p3 : V3 ℝ) : Option (V3 ℝ) :=
  let u : V3 ℝ := ⟨p2.x - p1.x, p2.y - p1.y, p2.z - p1.z⟩
  let v : V3 ℝ := ⟨p3.x - p1.x, p3.y - p1.y, p3.z - p1.z⟩
  let n : V3 ℝ := ⟨u.y * v.z - u.z * v.y, u.z * v.x - u.x * v.z, u.x * v.y - u.y * v.x⟩
  let l := computeLength n
  if l = 0 then none else some ⟨n.x / l, n.y / l, n.z / l⟩

/-- A line of an STL file. -/
inductive StlLine
  | solid
  | facet (n : V3 ℝ)
  | outer
  | vertex (p : V3 ℝ)
  | endloop
  | endfacet
  | endsolid

/-- The lines of a triangle, io/inp2stl.py 205-240. -/
noncomputable def stlTriangle (verts : List (V3 ℝ)) (t : Tri3) : Option (List StlLine) :=
  (pyGet verts t.1).bind fun p1 => (pyGet verts t.2.1).bind fun p2 => (pyGet verts t.2.2).bind fun p3 =>
    (computeNormal p1 p2 p3).map fun n => [.facet n, .outer, .vertex p1, .vertex p2, .vertex p3, .endloop, .endfacet]

/-- `writeStlFile`, io/inp2stl.py 195-243, for a name that ends with `.stl`: the lines of the file. -/
noncomputable def writeStl (verts : List (V3 ℝ)) (tris : List Tri3) : Option (List StlLine) :=
  (tris.mapM (stlTriangle verts)).map fun ls => StlLine.solid :: ls.flatten ++ [StlLine.endsolid]

section
variable {K : Type} [LinearOrder K]

/-- The corners while they are collected. -/
abbrev Box (K : Type) := V3 K × V3 K

/-- One vertex, io/inp2stl.py 252-265. -/
def boxStep (b : Option (Box K)) (p : V3 K) : Option (Box K) :=
  match b with
  | none => some (p, p)
  | some (lo, hi) => some (⟨min lo.x p.x, min lo.y p.y, min lo.z p.z⟩, ⟨max hi.x p.x, max hi.y p.y, max hi.z p.z⟩)

/-- `getMeshBBox`, io/inp2stl.py 246-266; the outer `none` is an index error, the inner one stands for `(None, None)`. -/
def meshBox (verts : List (V3 K)) (tris : List Tri3) : Option (Option (Box K)) :=
  ((tris.flatMap fun t => [t.1, t.2.1, t.2.2]).mapM (pyGet verts)).map fun ps => ps.foldl boxStep none

/-- The union of two boxes, io/inp2stl.py 278-286; `None[0]` is an error. -/
def joinBox : Option (Box K) → Option (Box K) → Option (Box K)
  | some a, some b => some (⟨min a.1.x b.1.x, min a.1.y b.1.y, min a.1.z b.1.z⟩, ⟨max a.2.x b.2.x, max a.2.y b.2.y, max a.2.z b.2.z⟩)
  | _, _ => none

/-- `getBBox`, io/inp2stl.py 269-288; for no meshes the corners are not assigned. -/
def bBox (verts : List (V3 K)) : List (List Tri3) → Option (Option (Box K))
  | [] => none
  | [m] => meshBox verts m
  | m :: ms => (meshBox verts m).bind fun b => ms.foldlM (fun b m => (meshBox verts m).bind fun c => (joinBox b c).map some) b

end

/-! ## names of the files -/

/-- The numerals of `str(n)`. -/
def pyStr (n : Nat) : List Char := Nat.toDigits 10 n

/-- `isFileExtensionSTL`, io/inp2stl.py 74-75: the last four characters without case. For names with less than four
characters the slice starts at a negative index, and has less than four characters as well. -/
def isStl (name : List Char) : Bool := (name.drop (name.length - 4)).map Char.toLower == ['.', 's', 't', 'l']

/-- `material_set`, io/inp2stl.py 107-112: one entry for every element record that names a set. -/
def materials (sets : List (Option (List Char))) : List (List Char) := sets.filterMap id

/-- The names of the files, io/inp2stl.py 319-341; `sets` has one entry for every element record of the file. -/
def stlNames (out : List Char) (sets : List (Option (List Char))) : List (List Char) :=
  if sets.length = 1 then [out]
  else
    let pre := if isStl out then out.take (out.length - 4) else out
    (List.range sets.length).map fun i =>
      match (materials sets)[i]? with
      | some m => pre ++ ['-'] ++ m ++ ['-'] ++ pyStr (i + 1) ++ ['.', 's', 't', 'l']
      | none => pre ++ ['-'] ++ pyStr (i + 1) ++ ['.', 's', 't', 'l']

end PM
