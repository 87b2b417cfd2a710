import Verif.Inp
import Verif.Stl

/-!
# The text of .inp files and the script that turns them into STL files

`readInpFile`, io/inp2stl.py 78-192, on the characters of the file, `str2bool` (12-20), `isFileExtensionINF` (70-71) and the script itself
(291-341). Letters are those of ASCII (`str.upper` and `str.lower` change other letters as well, `int` and `str.strip` know other numerals
and other blanks). What `float(...)` makes of a field is a parameter (`none` = `ValueError`). Numbers in STL files are not turned into text
(see `Stl`).
-/

namespace PM

/-- A text. -/
abbrev Txt := List Char

/-- The lines of a file, each with its newline character: `for line in input_file`, io/inp2stl.py 96. -/
def pyLines : Txt → List Txt
  | [] => []
  | c :: s =>
    if c = '\n' then [c] :: pyLines s
    else match pyLines s with
      | [] => [[c]]
      | l :: ls => (c :: l) :: ls

/-- `s.split(",")`. -/
def splitComma : Txt → List Txt
  | [] => [[]]
  | c :: s =>
    if c = ',' then [] :: splitComma s
    else match splitComma s with
      | [] => [[c]]
      | f :: fs => (c :: f) :: fs

/-- `s.upper()`. -/
def pyUpper (s : Txt) : Txt := s.map Char.toUpper

/-- `s[: len(p)] == p`. -/
def startsWith (p s : Txt) : Bool := s.take p.length == p

/-- What follows the first occurrence of `p`: `s[s.index(p) + len(p):]`; `none`: `p in s` is false. -/
def afterFirst (p : Txt) : Txt → Option Txt
  | [] => if startsWith p [] then some [] else none
  | c :: s => if startsWith p (c :: s) then some ((c :: s).drop p.length) else afterFirst p s

/-- `s.replace("PT_", "")`. -/
def removePT : Txt → Txt
  | 'P' :: 'T' :: '_' :: s => removePT s
  | c :: s => c :: removePT s
  | [] => []

/-- Blanks, as removed by `int`. -/
def isBlank (c : Char) : Bool := c = ' ' || c = '\t' || c = '\n' || c = '\r' || c = '\x0b' || c = '\x0c'

/-- `s.strip()`. -/
def pyStrip (s : Txt) : Txt := ((s.dropWhile isBlank).reverse.dropWhile isBlank).reverse

/-- A numeral. -/
def digitVal (c : Char) : Option Nat := if '0' ≤ c ∧ c ≤ '9' then some (c.toNat - '0'.toNat) else none

/-- Numerals, with single underscores between them; `under` tells if an underscore (or the end) may come now. -/
def readDigits (acc : Nat) (under : Bool) : Txt → Option Nat
  | [] => if under then some acc else none
  | c :: s =>
    if c = '_' then (if under then readDigits acc false s else none)
    else (digitVal c).bind fun d => readDigits (10 * acc + d) true s

/-- `int(s)`; `none` = `ValueError`. -/
def readInt (s : Txt) : Option Int :=
  match pyStrip s with
  | '-' :: r => (readDigits 0 false r).map fun n => -(n : Int)
  | '+' :: r => (readDigits 0 false r).map fun n => (n : Int)
  | r => (readDigits 0 false r).map fun n => (n : Int)

/-- The variables of the loop, io/inp2stl.py 85-93. -/
structure TextState (K : Type) where
  verts : List (V3 K) := []
  tris : List (List Tri3) := []
  mats : List Txt := []
  record : Option Txt := none
  offset : Nat := 0

variable {K : Type}

/-- The words records begin with. -/
def kwPart : Txt := "*PART".toList
/-- Tetrahedra. -/
def kwTet : Txt := "*ELEMENT, TYPE=C3D4".toList
/-- Headings. -/
def kwHeading : Txt := "*HEADING".toList
/-- Nodes. -/
def kwNode : Txt := "*NODE".toList
/-- Requests of output. -/
def kwNodeOutput : Txt := "*NODE OUTPUT".toList
/-- Names of sets. -/
def kwElset : Txt := "ELSET=".toList

/-- The name of the set in an element record, io/inp2stl.py 107-112: up to the last character (the newline). -/
def setName (record : Txt) : Option Txt := (afterFirst kwElset record).map fun r => removePT r.dropLast

/-- A keyword line, io/inp2stl.py 99-112. -/
def TextState.keyword (s : TextState K) (line : Txt) : TextState K :=
  let record := pyUpper line
  let s := { s with record := some record }
  if startsWith kwPart record then { s with offset := s.verts.length }
  else if startsWith kwTet record then { s with tris := s.tris ++ [[]], mats := s.mats ++ (setName record).toList }
  else s

/-- A line with data, io/inp2stl.py 114-176. Before any keyword line `None[...]` fails. -/
def TextState.data (toFloat : Txt → Option K) (s : TextState K) (line : Txt) : Option (TextState K) :=
  s.record.bind fun record =>
    if startsWith kwHeading record then some s
    else if startsWith kwNode record && !startsWith kwNodeOutput record then
      match splitComma line with
      | [_, x, y, z] => (toFloat x).bind fun x => (toFloat y).bind fun y => (toFloat z).map fun z => { s with verts := s.verts ++ [⟨x, y, z⟩] }
      | _ => none
    else if startsWith kwTet record then
      match splitComma line with
      | [_, a, b, c, d] => (readInt a).bind fun a => (readInt b).bind fun b => (readInt c).bind fun c => (readInt d).bind fun d =>
          (appendLast s.tris (inpTris s.offset a b c d)).map fun t => { s with tris := t }
      | _ => none
    else some s

/-- A line, io/inp2stl.py 96-176: `line[0]` and `line[1]` fail if there is no such character. -/
def TextState.step (toFloat : Txt → Option K) (s : TextState K) (line : Txt) : Option (TextState K) :=
  match line with
  | [] => none
  | c :: rest =>
    if c = '*' then
      match rest with
      | [] => none
      | d :: _ => some (if d ≠ '*' then s.keyword line else s)
    else s.data toFloat line

/-- The loop. -/
def textRun (toFloat : Txt → Option K) (s : TextState K) : List Txt → Option (TextState K)
  | [] => some s
  | l :: ls => (s.step toFloat l).bind fun s' => textRun toFloat s' ls

/-- What is read: vertices, triangles of the meshes, names of sets. -/
abbrev InpRead (K : Type) := List (V3 K) × List (List Tri3) × List Txt

/-- `isFileExtensionINF`, io/inp2stl.py 70-71. -/
def isInp (name : Txt) : Bool := (name.drop (name.length - 4)).map Char.toLower == ".inp".toList

/-- `readInpFile`, io/inp2stl.py 78-192, for a file with the given text. -/
def readInpText (toFloat : Txt → Option K) (name text : Txt) (flip : Bool) : Option (InpRead K) :=
  if isInp name then
    (textRun toFloat {} (pyLines text)).map fun s => (s.verts, if flip then s.tris.map (List.map flipTri3) else s.tris, s.mats)
  else none

/-- `str2bool` for a text, io/inp2stl.py 12-20; `none`: not accepted. -/
def str2bool (v : Txt) : Option Bool :=
  let w := String.ofList (v.map Char.toLower)
  if w ∈ ["yes", "true", "t", "y", "1"] then some true
  else if w ∈ ["no", "false", "f", "n", "0"] then some false
  else none

/-- The option `--flip`, io/inp2stl.py 34-42: not given, given without a value, given with one. -/
def flipOption : Option (Option Txt) → Option Bool
  | none => some false
  | some none => some true
  | some (some v) => str2bool v

/-- `writeStlFile`, io/inp2stl.py 195-243: the file that is written. -/
noncomputable def writeStlFile (name : Txt) (verts : List (V3 ℝ)) (tris : List Tri3) : Option (Txt × List StlLine) :=
  if isStl name then (writeStl verts tris).map fun ls => (name, ls) else none

/-- The names of the files for the meshes, io/inp2stl.py 319-341: the `i`-th name of a set goes with the `i`-th mesh. -/
def meshFileName (out : Txt) (mats : List Txt) (n i : Nat) : Txt :=
  if n = 1 then out
  else
    let pre := if isStl out then out.take (out.length - 4) else out
    match mats[i]? with
    | some m => pre ++ ['-'] ++ m ++ ['-'] ++ pyStr (i + 1) ++ ".stl".toList
    | none => pre ++ ['-'] ++ pyStr (i + 1) ++ ".stl".toList

/-- The script, io/inp2stl.py 291-341: the files that are written. The ranges that are printed fail without corners (`None[0]`). Files
written before an error are not counted. -/
noncomputable def inp2stl (toFloat : Txt → Option ℝ) (input text out : Txt) (flip : Option (Option Txt)) : Option (List (Txt × List StlLine)) :=
  (flipOption flip).bind fun f => (readInpText toFloat input text f).bind fun (verts, tris, mats) =>
    (bBox verts tris).bind fun box => box.bind fun _ =>
      tris.zipIdx.mapM fun (ts, i) => writeStlFile (meshFileName out mats tris.length i) verts ts

end PM
