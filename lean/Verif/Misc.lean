import Verif.Basic
import Verif.Geom
import Mathlib.Algebra.Order.Floor.Defs
import Verif.Frames
import Mathlib.Algebra.Field.Defs

/-!
# Colours, bins of the ribbed plate, one-dimensional maps

`utils/colors.py`, `recipes.py` 251-293, `utils/utils.py` 835-943.
-/

namespace PM

/-! ## colours -/

/-- The hexadecimal digits of Python's `%x`. -/
def hexDigit (n : Nat) : Char := ['0', '1', '2', '3', '4', '5', '6', '7', '8', '9', 'a', 'b', 'c', 'd', 'e', 'f'].getD n '0'

/-- Hexadecimal digits of `n`, at most `f` of them. -/
def hexGo : Nat → Nat → List Char
  | 0, _ => []
  | f + 1, n => if n < 16 then [hexDigit n] else hexGo f (n / 16) ++ [hexDigit (n % 16)]

/-- `'%x' % n` (`n + 1` digits are always enough). -/
def hexOf (n : Nat) : List Char := hexGo (n + 1) n

/-- `'%02x' % n`. -/
def hex02 (n : Nat) : List Char := List.replicate (2 - (hexOf n).length) '0' ++ hexOf n

/-- `rgb_to_hex`, colors.py 4-14, for a tuple of three non-negative integers. -/
def rgbToHex (r g b : Nat) : List Char := hex02 r ++ hex02 g ++ hex02 b

/-- Value of a hexadecimal digit. -/
def hexVal (c : Char) : Option Nat :=
  let d := ['0', '1', '2', '3', '4', '5', '6', '7', '8', '9', 'a', 'b', 'c', 'd', 'e', 'f']
  let u := ['0', '1', '2', '3', '4', '5', '6', '7', '8', '9', 'A', 'B', 'C', 'D', 'E', 'F']
  if d.idxOf c < 16 then some (d.idxOf c) else if u.idxOf c < 16 then some (u.idxOf c) else none

/-- `int(s, 16)` for strings of digits; blanks, signs, underscores and the prefix `0x`, which Python accepts too, are refused
here. -/
def intHex (s : List Char) : Option Nat :=
  if s.isEmpty then none else s.foldl (fun v c => v.bind fun v => (hexVal c).map fun d => 16 * v + d) (some 0)

/-- Slices of length `k`, colors.py 29; `f` bounds their number. -/
def chunks {α : Type} (k : Nat) : Nat → List α → List (List α)
  | 0, _ => []
  | _, [] => []
  | f + 1, x :: l => (x :: l).take k :: chunks k f ((x :: l).drop k)

/-- `hex_to_rgb`, colors.py 17-29. A step of zero is an error. -/
def hexToRgb (value : List Char) : Option (List Nat) :=
  let v := value.dropWhile (· == '#')
  let k := v.length / 3
  if k = 0 then none else (chunks k v.length v).mapM intHex

/-! ## bins -/

section
variable {K : Type} [Field K] [LinearOrder K] [FloorRing K]

/-- Number of parts of the gap from `a` to `b`, recipes.py 256-259. -/
def ndivOf (lmax a b : K) : Nat := if b - a > lmax then (⌈(b - a) / lmax⌉).toNat else 1

/-- The values written for one gap, recipes.py 260-262. -/
def gapBins (lmax a b : K) : List K := (List.range (ndivOf lmax a b)).map fun (j : Nat) => a + j * ((b - a) / ndivOf lmax a b)

/-- `subdivide`, recipes.py 251-264. `bins[-1]` of no bins is an error. -/
def subdivide (lmax : K) : List K → Option (List K)
  | [] => none
  | [b] => some [b]
  | a :: b :: l => (subdivide lmax (b :: l)).map fun r => gapBins lmax a b ++ r

/-- The argument `lmax` of `ribbed_plate`. -/
inductive LMax (K : Type) where
  | none
  | float (x : K)
  | int (n : Int)

/-- The bins in one direction, recipes.py 286-292: sorted without repetitions, then subdivided if `lmax` is a float. -/
def plateBins (bins : List K) : LMax K → Option (List K)
  | .float x => subdivide x (npUnique bins)
  | _ => some (npUnique bins)

end

/-! ## one-dimensional maps -/

section
variable {K : Type} [Field K]

/-- The writes of `pcoords_to_coords_1d`, utils.py 936-942. Negative index -1 is the last node; `none`: a cell without nodes. -/
def pcoords1dWrites (pcoords : List K) (ecoords : List (List (V3 K))) : Option (List (Nat × V3 K)) :=
  (ecoords.zipIdx.mapM fun (e : List (V3 K) × Nat) => e.1.head?.bind fun a => e.1.getLast?.map fun b =>
    pcoords.zipIdx.map fun (p : K × Nat) => (e.2 * pcoords.length + p.2, (1 - p.1) • a + p.1 • b)).map List.flatten

/-- `pcoords_to_coords_1d` with the writes in the order `w`. -/
def pcoords1dRun (pcoords : List K) (ecoords : List (List (V3 K))) (w : List (Nat × V3 K)) : List (V3 K) :=
  toArr (ecoords.length * pcoords.length) (runW w fun _ => 0)

end

/-- `lengths_of_lines`, utils.py 835-852: distance of the last and the first node; `none`: a node out of range or a cell
without nodes. -/
noncomputable def lengthsOfLines (coords : List (V3 ℝ)) (topo : Topo) : Option (List ℝ) :=
  topo.mapM fun row => row.getLast?.bind fun b => row.head?.bind fun a =>
    (coords[b]?).bind fun q => (coords[a]?).map fun p => vnorm (q - p)

/-- `lengths_of_lines2`, utils.py 857-872. -/
noncomputable def lengthsOfLines2 (ecoords : List (List (V3 ℝ))) : Option (List ℝ) :=
  ecoords.mapM fun e => e.getLast?.bind fun q => e.head?.map fun p => vnorm (q - p)

/-- `distances_of_points`, utils.py 875-894: the first entry stays zero. -/
noncomputable def distancesOfPoints (coords : List (V3 ℝ)) : List ℝ :=
  match coords with
  | [] => []
  | p :: l => 0 :: ((p :: l).zip l).map fun q => vnorm (q.2 - q.1)

end PM
