import Verif.Basic
import Verif.CellData

/-!
# Model: the databases of points and cells

`akwrap.py` 20-31 and 154-211, `celldata.py` 71-136, 270-312 and 402-461, `pointdata.py` 45-112, `polydata.py` 704-777 and 927-953.

A database is an awkward array of records; here the list of its columns with their names, in order. The entries are of an arbitrary
type. `ak.zip` is a parameter: it is only assumed to return columns of equal length as they are.
-/

namespace PM

section
variable {V : Type}

/-- A python dictionary of arrays, in order of insertion. -/
abbrev Dict (V : Type) := List (String × List V)

/-- `d[k]`. -/
def dget (d : Dict V) (k : String) : Option (List V) := (d.find? fun p => p.1 = k).map Prod.snd

/-- `d[k] = v`. -/
def dset (d : Dict V) (k : String) (v : List V) : Dict V :=
  if d.any fun p => p.1 = k then d.map fun p => if p.1 = k then (k, v) else p else d ++ [(k, v)]

/-- The value of a keyword argument: an array, a number, or something else. -/
inductive Arg (V : Type) where
  | arr (a : List V)
  | num (v : V)
  | other

/-- `for k, v in kwargs.items(): if isinstance(v, ndarray): fields[k] = v`, akwrap.py 24-26; with `keep` the condition
of celldata.py 108-111. -/
def addArgs (keep : List V → Bool) (d : Dict V) (kwargs : List (String × Arg V)) : Dict V :=
  kwargs.foldl (fun d p => match p.2 with
    | .arr a => if keep a then dset d p.1 a else d
    | _ => d) d

/-- The dictionary given to `ak.zip` by the constructor of `AkWrapper`, akwrap.py 23-28. -/
def akFields (fields : Dict V) (kwargs : List (String × Arg V)) : Dict V := addArgs (fun _ => true) fields kwargs

/-- The constructor of `AkWrapper` without `wrap`, akwrap.py 20-31. The outer `none` is an exception, the inner one the absence of a database. -/
def akInit (zip : Dict V → Option (Dict V)) (fields : Dict V) (kwargs : List (String × Arg V)) : Option (Option (Dict V)) :=
  let d := akFields fields kwargs
  if d.isEmpty then some none else (zip d).map some

/-- Number of rows of a database. -/
def dlen (db : Dict V) : Nat := match db with
  | [] => 0
  | p :: _ => p.2.length

/-- `db[k] = value` on a database; `none`: the array has another length (not modelled any further). -/
def dbSet (db : Dict V) (k : String) (v : List V) : Option (Dict V) := if v.length = dlen db then some (dset db k v) else none

/-- `_attr_map_.get(k, k)` of `CellData`, celldata.py 61-69, 90. -/
def attrKey (k : String) : String :=
  if k = "nodes" then "_nodes" else if k = "frames" then "_frames" else if k = "ndf" then "_ndf" else if k = "id" then "_id"
  else if k = "areas" then "_areas" else if k = "t" then "_t" else if k = "activity" then "_activity" else k

/-- `{attr_map.get(k, k): v for k, v in fields.items()}`, celldata.py 90. -/
def renameFields (fields : Dict V) : Dict V := fields.foldl (fun d p => dset d (attrKey p.1) p.2) []

/-- `if isinstance(value, ndarray): fields[key] = value`. -/
def addArr (d : Dict V) (k : String) : Option (Arg V) → Dict V
  | some (.arr a) => dset d k a
  | _ => d

/-- The nodes, celldata.py 95-100: the first positional argument if there is one, otherwise `topo`. -/
def nodesArg (pos topo : Option (Arg V)) : Option (Arg V) := match pos with
  | some p => some p
  | none => topo

/-- The dictionary handed on by the constructor of `CellData` without `wrap` and `db`, celldata.py 86-114. -/
def cellFields (pos topo activity areas : Option (Arg V)) (fields : Dict V) (kwargs : List (String × Arg V)) : Dict V :=
  let d := addArr (renameFields fields) "_activity" activity
  let d := match nodesArg pos topo with
    | some (.arr n) => addArgs (fun a => a.length = n.length) (dset d "_nodes" n) kwargs
    | _ => d
  addArr d "_areas" areas

/-- The setters of `t` and `A`, celldata.py 407-424: one number is repeated. -/
def setColumn (k : String) (db : Dict V) : Option (Arg V) → Option (Dict V)
  | none => some db
  | some (.arr a) => dbSet db k a
  | some (.num v) => dbSet db k (List.replicate (dlen db) v)
  | some .other => none

/-- The constructor of `CellData` without `wrap`, `db` and `frames`, celldata.py 86-136. -/
def cellInit (zip : Dict V → Option (Dict V)) (pos topo activity areas t : Option (Arg V)) (fields : Dict V)
    (kwargs : List (String × Arg V)) : Option (Option (Dict V)) :=
  (akInit zip (cellFields pos topo activity areas fields kwargs) kwargs).bind fun r => match r with
    | none => some none
    | some db => (setColumn "_t" db t).bind fun db => (setColumn "_areas" db areas).map some

/-- The dictionary `fields` of the caller after the constructor of `CellData`: one that is not empty is copied (celldata.py 88-90). -/
def cellCaller (pos topo activity areas : Option (Arg V)) (fields : Dict V) (kwargs : List (String × Arg V)) : Dict V :=
  if fields.isEmpty then akFields (cellFields pos topo activity areas fields kwargs) kwargs else fields

/-- The dictionary handed on by the constructor of `PointData` without `wrap` and `db`, pointdata.py 62-103. `x` are the
coordinates to be stored (see `FrameMesh`), `yes` is `True`. The names are not translated. -/
def pointFields (yes : V) (x : List V) (activity : Option (List V)) (fields : Dict V) (kwargs : List (String × Arg V)) : Dict V :=
  let d := dset fields "_x" x
  let d := dset d "_activity" (activity.getD (List.replicate x.length yes))
  addArgs (fun a => a.length = x.length) d kwargs

/-- The constructor of `PointData` without `wrap` and `db`, pointdata.py 62-112. -/
def pointInit (zip : Dict V → Option (Dict V)) (yes : V) (x : List V) (activity : Option (List V)) (fields : Dict V)
    (kwargs : List (String × Arg V)) : Option (Option (Dict V)) :=
  akInit zip (pointFields yes x activity fields kwargs) kwargs

/-- The dictionary `fields` of the caller after the constructor of `PointData`: the object is used as it is. -/
def pointCaller (yes : V) (x : List V) (activity : Option (List V)) (fields : Dict V) (kwargs : List (String × Arg V)) : Dict V :=
  akFields (pointFields yes x activity fields kwargs) kwargs

/-! ## reading -/

/-- The argument `fields` of `to_dict` and `to_list`: a list, or an iterable without `extend`. -/
inductive FieldsArg where
  | list (l : List String)
  | iter (l : List String)

/-- The loop of akwrap.py 174-179 and 202-207. -/
def selectFields (db : Dict V) (names : List String) : Option (Dict V) :=
  names.foldl (fun acc f => acc.bind fun res => (dget db f).map fun v => dset res f v) (some [])

/-- `to_dict`, akwrap.py 154-180. -/
def toDict (db : Dict V) (args : List String) (fields : Option FieldsArg) : Option (Dict V) :=
  match fields with
  | some (.iter _) => none
  | some (.list l) => selectFields db (if (l ++ args).isEmpty then db.map Prod.fst else l ++ args)
  | none => selectFields db (if args.isEmpty then db.map Prod.fst else args)

/-- `db.to_list()`: one record per row. -/
def rowsOf (db : Dict V) : List (List (String × V)) :=
  (List.range (dlen db)).map fun i => db.filterMap fun p => (p.2[i]?).map fun v => (p.1, v)

/-- `AkWrapper(fields=d).to_list()`, akwrap.py 208: without fields there is no database. -/
def listOfFields (zip : Dict V → Option (Dict V)) (d : Dict V) : Option (List (List (String × V))) :=
  (akInit zip d []).bind fun r => r.map rowsOf

/-- `to_list`, akwrap.py 182-211. -/
def toList (zip : Dict V → Option (Dict V)) (db : Dict V) (args : List String) (fields : Option FieldsArg) :
    Option (List (List (String × V))) :=
  match fields with
  | some (.iter _) => none
  | some (.list l) => (selectFields db (l ++ args)).bind (listOfFields zip)
  | none => if args.isEmpty then some (rowsOf db) else (selectFields db args).bind (listOfFields zip)

/-- `CellData.set_nodal_distribution_factors`, celldata.py 293-312. `_attr_map_["_ndf"]` does not exist; the field with
the name `id` (not `_id`) selects the factors, `index` reads an entry as an index. -/
def setFactors (index : V → Option Nat) (db : Dict V) (factors : List V) (key : Option String) : Option (Dict V) :=
  key.bind fun k =>
    if factors.length ≠ dlen db then (dget db "id").bind fun ids => (ids.mapM index).bind fun is => (gather? factors is).bind (dbSet db k)
    else dbSet db k factors

end

/-! ## meshes -/

/-- A block of a mesh with its path (child key first) and its databases. -/
structure DBlock (V : Type) where
  path : List Nat
  pd : Option (Dict V)
  cd : Option (Dict V)

section
variable {V : Type}

/-- `blocks(inclusive=…)` of the block with path `p`, polydata.py 866-891. -/
def dblocks (inclusive : Bool) (m : List (DBlock V)) (p : List Nat) : List (DBlock V) :=
  m.filter fun b => decide (p <:+ b.path) && (inclusive || !decide (b.path = p))

/-- `functools.reduce(lambda a, b: a + b, l)`: an empty list is an error. -/
def concatLists {α : Type} : List (List α) → Option (List α)
  | [] => none
  | a :: l => some (l.foldl (· ++ ·) a)

/-- The function `foo` of `to_lists`, polydata.py 735-751 and 757-773. -/
def listOfBlock (zip : Dict V → Option (Dict V)) (names : Option (List String)) (db : Dict V) : Option (List (List (String × V))) :=
  match names with
  | none => some (rowsOf db)
  | some l => (selectFields db l).bind (listOfFields zip)

/-- One half of `to_lists`, polydata.py 733-754 and 755-776. -/
def listsOf (zip : Dict V → Option (Dict V)) (dbs : List (Dict V)) (names : Option (List String)) :
    Option (List (List (String × V))) :=
  (dbs.mapM (listOfBlock zip names)).bind concatLists

/-- `to_lists`, polydata.py 709-777. -/
def toLists (zip : Dict V → Option (Dict V)) (m : List (DBlock V)) (p : List Nat) (pointNames cellNames : Option (List String)) :
    Option (List (List (String × V)) × List (List (String × V))) :=
  (listsOf zip ((dblocks true m p).filterMap DBlock.pd) pointNames).bind fun a =>
    (listsOf zip ((dblocks true m p).filterMap DBlock.cd) cellNames).map fun b => (a, b)

/-- `np.unique(np.array(list(m)).flatten())`, polydata.py 939 and 953; `uniq` sorts without repetitions. `none`: the lists
have different lengths, which does not give an array of names. -/
def fieldNames (uniq : List String → List String) (dbs : List (Dict V)) : Option (List String) :=
  if dbs.all fun db => db.length = (dbs.headD []).length then some (uniq (dbs.flatMap fun db => db.map Prod.fst)) else none

/-- `point_fields`, polydata.py 927-939. -/
def pointFieldNames (uniq : List String → List String) (m : List (DBlock V)) (p : List Nat) : Option (List String) :=
  fieldNames uniq ((dblocks false m p).filterMap DBlock.pd)

/-- `cell_fields`, polydata.py 941-953. -/
def cellFieldNames (uniq : List String → List String) (m : List (DBlock V)) (p : List Nat) : Option (List String) :=
  fieldNames uniq ((dblocks false m p).filterMap DBlock.cd)

end

end PM
