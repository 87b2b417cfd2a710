import Verif.Transform
import Verif.Cells
import Verif.Elevate

/-!
# Model: the arguments of the conversions of cells, `utils/topology/tr.py`

`Transform` models the loops of the conversions, `Cells` the tables. Here are the functions as they are called: what is done with `path`,
`subdivide`, `data` and further positional arguments, and which exception is raised. Coordinates are handed on unchanged and may be
anything (`polygon.py` passes `None`). Not modelled: data types of the arrays, and unknown keyword arguments, which are ignored.
-/

namespace PM

variable {β C : Type}

/-- What a call may end with instead of a value. `overrun`: an index out of range in compiled code, which is not checked. -/
inductive ConvErr where
  | assertion | notImplemented | attribute | index | type | overrun
deriving DecidableEq, Repr

/-- Arrays of data: one axis, or at least two of them. The entries may be arrays themselves (further axes). -/
inductive NArr (β : Type) where
  | flat (d : List β)
  | table (d : List (List β)) (width : Nat)
deriving DecidableEq, Repr

/-- The argument `data`: an array, an Awkward array (`none`: `to_numpy` fails), several arrays, or an object that is none of these and
not iterable. -/
inductive ConvArg (β : Type) where
  | arr (a : NArr β)
  | awk (a : Option (NArr β))
  | seq (l : List (NArr β))
  | atom
deriving DecidableEq, Repr

/-- Data that are returned. -/
inductive ConvOut (β : Type) where
  | arr (a : NArr β)
  | seq (l : List (NArr β))
deriving DecidableEq, Repr

/-- The argument `path`: missing, an array with two axes, with one axis, with three axes (the second of length `n`), a text, or another
object (a list of lists, for instance). -/
inductive ConvPath where
  | missing
  | arr (rows : List (List Nat)) (width : Nat)
  | row (r : List Nat)
  | cube (n : Nat)
  | name (s : String)
  | nested (rows : List (List Nat))
deriving DecidableEq, Repr

/-- What `transform_topology` returns: an array, a pair, or `None`. -/
inductive TransRes (β : Type) where
  | topo (t : Topo)
  | both (t : Topo) (d : ConvOut β)
  | nothing
deriving DecidableEq, Repr

/-- A value of compiled code, or an index out of range. -/
def compiled {A : Type} : Option A → Except ConvErr A
  | some a => .ok a
  | none => .error .overrun

/-- `transform_topology_data`, tr.py 155-164, for arrays with any number of axes; `nNE` is `topo.shape[1]`. -/
def convData (zb : β) (nE nNE : Nat) (p : List (List Nat)) (w : Nat) : NArr β → Except ConvErr (NArr β)
  | .table d wd =>
    if d.length = nE ∧ wd = nNE then do
      let r ← compiled (repeatCellNodalData d p w zb)
      return .table r w
    else if d.length = nE then return .table (npRepeat d p.length) wd
    else .error .notImplemented
  | .flat d =>
    if d.length = nE then return .flat (npRepeat d p.length)
    else .error .notImplemented

/-- `transform_topology`, tr.py 131-152, after the path has become an array with two axes. -/
def transformBody (zb : β) (topo : Topo) (nNE : Nat) (p : List (List Nat)) (w : Nat) (data : Option (ConvArg β)) :
    Except ConvErr (TransRes β) :=
  match data with
  | none => do
    let t ← compiled (transformTopology topo p w 0)
    return .topo t
  | some (.arr a) => do
    let d ← convData zb topo.length nNE p w a
    let t ← compiled (transformTopology topo p w 0)
    return .both t (.arr d)
  | some (.awk none) => .error .type
  | some (.awk (some a)) => do
    let d ← convData zb topo.length nNE p w a
    let t ← compiled (transformTopology topo p w 0)
    return .both t (.arr d)
  | some (.seq l) => do
    let t ← compiled (transformTopology topo p w 0)
    let ds ← l.mapM (convData zb topo.length nNE p w)
    return .both t (.seq ds)
  | some .atom => return .nothing

/-- `transform_topology`, tr.py 62-152. Threads do not matter: the arrays are treated one by one and put in their order. -/
def transformArgs (zb : β) (topo : Topo) (nNE : Nat) (path : ConvPath) (data : Option (ConvArg β)) : Except ConvErr (TransRes β) :=
  match path with
  | .arr rows w => transformBody zb topo nNE rows w data
  | .row r => transformBody zb topo nNE [r] r.length data
  | .cube _ => .error .assertion
  | _ => .error .attribute

/-- The last four lines of every conversion (tr.py 226-229 and alike): `+` of a pair or of `None` is a `TypeError`, and so is
`(coords,) + None`. If there are no data, further positional arguments `extra` take their place in `transform_topology`. -/
def convFinish (zb : β) (coords : C) (topo : Topo) (nNE : Nat) (path : ConvPath) (data : Option (ConvArg β))
    (extra : List (Option (ConvArg β))) : Except ConvErr (C × Topo × Option (ConvOut β)) :=
  match data with
  | none => do
    match ← transformArgs zb topo nNE path extra.head?.join with
    | .topo t => return (coords, t, none)
    | _ => .error .type
  | some d => do
    match ← transformArgs zb topo nNE path (some d) with
    | .both t r => return (coords, t, some r)
    | _ => .error .type

/-- `if isinstance(path, ndarray): assert path.shape[1] == k`; `other` is the branch of all other objects. -/
def arrayCols (k : Nat) (path : ConvPath) (other : Except ConvErr ConvPath) : Except ConvErr ConvPath :=
  match path with
  | .arr rows w => if w = k then .ok (.arr rows w) else .error .assertion
  | .cube n => if n = k then .ok (.cube n) else .error .assertion
  | .row _ => .error .index
  | _ => other

/-- `T6_to_T3`, tr.py 216-225: the path. -/
def pathOfT6T3 (path : ConvPath) (subdivide : Bool) : Except ConvErr ConvPath :=
  arrayCols 3 path (match path with
    | .missing => if subdivide then .ok (.arr pathT6T3 3) else .ok (.arr [[0, 1, 2]] 3)
    | p => .ok p)

/-- `H27_to_H8`, tr.py 241-260: the path. -/
def pathOfH27H8 (path : ConvPath) (subdivide : Bool) : Except ConvErr ConvPath :=
  arrayCols 8 path (match path with
    | .missing => if subdivide then .ok (.arr pathH27H8 8) else .ok (.arr [[0, 1, 2, 3, 4, 5, 6, 7]] 8)
    | p => .ok p)

/-- `Q9_to_Q4`, tr.py 275-288: the path; unknown texts are handed on. -/
def pathOfQ9Q4 (path : ConvPath) : Except ConvErr ConvPath :=
  arrayCols 4 path (match path with
    | .missing => .ok (.arr pathQ9Q4 4)
    | .name s => if s = "grid" then .ok (.arr pathQ9Q4Grid 4) else .ok (.name s)
    | p => .ok p)

/-- `H8_to_TET4`, tr.py 321-331: the path. -/
def pathOfH8TET4 (path : ConvPath) : Except ConvErr ConvPath :=
  arrayCols 4 path (match path with
    | .missing => .ok (.arr pathH8TET4 4)
    | .name _ => .error .notImplemented
    | p => .ok p)

/-- `H27_to_TET10`, tr.py 345-360: the path. -/
def pathOfH27TET10 (path : ConvPath) : Except ConvErr ConvPath :=
  arrayCols 10 path (match path with
    | .missing => .ok (.arr pathH27TET10 10)
    | .name _ => .error .notImplemented
    | p => .ok p)

/-- `H8_to_Q4`, tr.py 375-391: the path. -/
def pathOfH8Q4 (path : ConvPath) : Except ConvErr ConvPath :=
  arrayCols 4 path (match path with
    | .missing => .ok (.arr pathH8Q4 4)
    | .name _ => .error .notImplemented
    | p => .ok p)

/-- `Q4_to_T3`, tr.py 484-491: the path; unknown texts are handed on. -/
def pathOfQ4T3 (path : ConvPath) : Except ConvErr ConvPath :=
  arrayCols 3 path (match path with
    | .missing => .ok (.arr pathQ4T3 3)
    | .name s => if s = "grid" then .ok (.arr pathQ4T3Grid 3) else .ok (.name s)
    | p => .ok p)

/-- `Q8_to_T3`, tr.py 506-522: the path. -/
def pathOfQ8T3 (path : ConvPath) : Except ConvErr ConvPath :=
  arrayCols 3 path (match path with
    | .missing => .ok (.arr pathQ8T3 3)
    | .name _ => .error .notImplemented
    | p => .ok p)

/-- `W6_to_TET4`, tr.py 623-632: the path. -/
def pathOfW6TET4 (path : ConvPath) : Except ConvErr ConvPath :=
  arrayCols 4 path (match path with
    | .missing => .ok (.arr pathW6TET4 4)
    | .name _ => .error .notImplemented
    | p => .ok p)

/-- `W18_to_W6`, tr.py 648-669: the path. -/
def pathOfW18W6 (path : ConvPath) (subdivide : Bool) : Except ConvErr ConvPath :=
  arrayCols 6 path (match path with
    | .missing => if subdivide then .ok (.arr pathW18W6 6) else .ok (.arr [[0, 1, 2, 3, 4, 5]] 6)
    | .name _ => .error .notImplemented
    | p => .ok p)

/-- `T6_to_T3`, tr.py 207-229. -/
def t6ToT3 (zb : β) (coords : C) (topo : Topo) (nNE : Nat) (data : Option (ConvArg β)) (extra : List (Option (ConvArg β)))
    (path : ConvPath) (subdivide : Bool) : Except ConvErr (C × Topo × Option (ConvOut β)) := do
  convFinish zb coords topo nNE (← pathOfT6T3 path subdivide) data extra

/-- `H27_to_H8`, tr.py 232-264. -/
def h27ToH8 (zb : β) (coords : C) (topo : Topo) (nNE : Nat) (data : Option (ConvArg β)) (extra : List (Option (ConvArg β)))
    (path : ConvPath) (subdivide : Bool) : Except ConvErr (C × Topo × Option (ConvOut β)) := do
  convFinish zb coords topo nNE (← pathOfH27H8 path subdivide) data extra

/-- `Q9_to_Q4`, tr.py 267-292. -/
def q9ToQ4 (zb : β) (coords : C) (topo : Topo) (nNE : Nat) (data : Option (ConvArg β)) (extra : List (Option (ConvArg β)))
    (path : ConvPath) : Except ConvErr (C × Topo × Option (ConvOut β)) := do
  convFinish zb coords topo nNE (← pathOfQ9Q4 path) data extra

/-- `H8_to_TET4`, tr.py 313-334. -/
def h8ToTET4 (zb : β) (coords : C) (topo : Topo) (nNE : Nat) (data : Option (ConvArg β)) (extra : List (Option (ConvArg β)))
    (path : ConvPath) : Except ConvErr (C × Topo × Option (ConvOut β)) := do
  convFinish zb coords topo nNE (← pathOfH8TET4 path) data extra

/-- `H27_to_TET10`, tr.py 337-364. -/
def h27ToTET10 (zb : β) (coords : C) (topo : Topo) (nNE : Nat) (data : Option (ConvArg β)) (extra : List (Option (ConvArg β)))
    (path : ConvPath) : Except ConvErr (C × Topo × Option (ConvOut β)) := do
  convFinish zb coords topo nNE (← pathOfH27TET10 path) data extra

/-- `H8_to_Q4`, tr.py 367-395. -/
def h8ToQ4 (zb : β) (coords : C) (topo : Topo) (nNE : Nat) (data : Option (ConvArg β)) (extra : List (Option (ConvArg β)))
    (path : ConvPath) : Except ConvErr (C × Topo × Option (ConvOut β)) := do
  convFinish zb coords topo nNE (← pathOfH8Q4 path) data extra

/-- `Q4_to_T3`, tr.py 476-495. -/
def q4ToT3 (zb : β) (coords : C) (topo : Topo) (nNE : Nat) (data : Option (ConvArg β)) (extra : List (Option (ConvArg β)))
    (path : ConvPath) : Except ConvErr (C × Topo × Option (ConvOut β)) := do
  convFinish zb coords topo nNE (← pathOfQ4T3 path) data extra

/-- `Q8_to_T3`, tr.py 498-526. -/
def q8ToT3 (zb : β) (coords : C) (topo : Topo) (nNE : Nat) (data : Option (ConvArg β)) (extra : List (Option (ConvArg β)))
    (path : ConvPath) : Except ConvErr (C × Topo × Option (ConvOut β)) := do
  convFinish zb coords topo nNE (← pathOfQ8T3 path) data extra

/-- `W6_to_TET4`, tr.py 615-636. -/
def w6ToTET4 (zb : β) (coords : C) (topo : Topo) (nNE : Nat) (data : Option (ConvArg β)) (extra : List (Option (ConvArg β)))
    (path : ConvPath) : Except ConvErr (C × Topo × Option (ConvOut β)) := do
  convFinish zb coords topo nNE (← pathOfW6TET4 path) data extra

/-- `W18_to_W6`, tr.py 639-673. -/
def w18ToW6 (zb : β) (coords : C) (topo : Topo) (nNE : Nat) (data : Option (ConvArg β)) (extra : List (Option (ConvArg β)))
    (path : ConvPath) (subdivide : Bool) : Except ConvErr (C × Topo × Option (ConvOut β)) := do
  convFinish zb coords topo nNE (← pathOfW18W6 path subdivide) data extra

/-- The assignments of `_Q9_to_T6`, tr.py 301-310, in the order of a sequential run; only two rows of the path are read. -/
def q9T6Writes (topo : Topo) (path : List (List Nat)) : List ((Nat × Nat) × Option Nat) :=
  (List.range topo.length).flatMap fun i => (List.range 6).flatMap fun j =>
    [((i * 2, j), pick? topo path i 0 j), ((i * 2 + 1, j), pick? topo path i 1 j)]

/-- The array left behind by the assignments `w` on `np.zeros((2 * nE, 6))`. -/
def q9T6Result (topo : Topo) (w : List ((Nat × Nat) × Option Nat)) : Option Topo :=
  (toRows (2 * topo.length) 6 (runW w fun _ => some 0)).mapM fun r => r.mapM id

/-- `Q9_to_T6`, tr.py 295-298, 301-311; `none`: an index out of range. -/
def q9ToT6 (coords : C) (topo : Topo) (path : Option (List (List Nat))) : Option (C × Topo) :=
  (q9T6Result topo (q9T6Writes topo (path.getD pathQ9T6))).map fun t => (coords, t)

end PM
