import Verif.Geom

/-!
# Reading tetrahedra from .inp files

`readInpFile`, io/inp2stl.py 78-192. Lines are given as they are told apart by the code; a data line is the list of its
comma separated fields, each with what `int(...)` and `float(...)` make of it (`none` = `ValueError`). Names of element sets
(`material_set`), the check of the file name and the text itself are in `InpText`, the writing of files is in `Stl`.
-/

namespace PM

/-- Kinds of records, told apart by the first characters of the last keyword line, io/inp2stl.py 117-181. -/
inductive InpRec
  | node
  | tet
  | other
deriving DecidableEq

/-- A line of the file. -/
inductive InpLine (K : Type)
  /-- Starts with `**`. -/
  | comment
  /-- Starts with `*PART`. -/
  | part
  /-- Starts with `*ELEMENT, TYPE=C3D4`. -/
  | element
  /-- Starts with `*NODE` but not with `*NODE OUTPUT`. -/
  | node
  /-- Any other line starting with `*`. -/
  | keyword
  /-- Any other line: its fields. -/
  | data (fields : List (Option Int × Option K))

/-- A triangle given by numbers of vertices. -/
abbrev Tri3 := Int × Int × Int

/-- The variables of the loop. -/
structure InpState (K : Type) where
  verts : List (V3 K) := []
  tris : List (List Tri3) := []
  kind : Option InpRec := none
  offset : Nat := 0

/-- The four triangles of a tetrahedron, io/inp2stl.py 133-163: `a`, `b`, `c`, `d` are the numbers in the line. -/
def inpTris (off : Nat) (a b c d : Int) : List Tri3 :=
  [(a - 1 + off, b - 1 + off, c - 1 + off), (a - 1 + off, d - 1 + off, b - 1 + off),
   (d - 1 + off, c - 1 + off, b - 1 + off), (d - 1 + off, a - 1 + off, c - 1 + off)]

/-- `triangle_index_set[-1].append(...)`; fails if there is no list. -/
def appendLast {α : Type} (ts : List (List α)) (t : List α) : Option (List (List α)) :=
  (ts.getLast?).map fun l => ts.dropLast ++ [l ++ t]

/-- A data line, io/inp2stl.py 115-176. Without a keyword line before it the code fails (`None[:...]`). -/
def InpState.data {K : Type} (s : InpState K) (f : List (Option Int × Option K)) : Option (InpState K) :=
  match s.kind with
  | none => none
  | some .other => some s
  | some .node =>
    match f with
    | [_, (_, some x), (_, some y), (_, some z)] => some { s with verts := s.verts ++ [⟨x, y, z⟩] }
    | _ => none
  | some .tet =>
    match f with
    | [_, (some a, _), (some b, _), (some c, _), (some d, _)] =>
      (appendLast s.tris (inpTris s.offset a b c d)).map fun t => { s with tris := t }
    | _ => none

/-- One line of the file, io/inp2stl.py 96-176. -/
def InpState.step {K : Type} (s : InpState K) : InpLine K → Option (InpState K)
  | .comment => some s
  | .part => some { s with kind := some .other, offset := s.verts.length }
  | .element => some { s with kind := some .tet, tris := s.tris ++ [[]] }
  | .node => some { s with kind := some .node }
  | .keyword => some { s with kind := some .other }
  | .data f => s.data f

/-- The loop over the lines. -/
def inpRun {K : Type} (s : InpState K) : List (InpLine K) → Option (InpState K)
  | [] => some s
  | l :: ls => (s.step l).bind fun s' => inpRun s' ls

/-- Flipping, io/inp2stl.py 178-190: `p3` is the second and `p2` the third entry. -/
def flipTri3 (t : Tri3) : Tri3 := (t.1, t.2.2, t.2.1)

/-- `readInpFile(name, flip)`. -/
def readInp {K : Type} (lines : List (InpLine K)) (flip : Bool) : Option (List (V3 K) × List (List Tri3)) :=
  (inpRun {} lines).map fun s => (s.verts, if flip then s.tris.map (List.map flipTri3) else s.tris)

end PM
