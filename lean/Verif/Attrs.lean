import Verif.Database

/-!
# Model: names and attributes of databases

`abcdata.py` 21-28 (maps of names), `akwrap.py` 102-152 (`to_ak`, `to_akarray`, `to_akrecord`), 171 and 201 (the list of the caller),
`celldata.py` 270-291 (`__getattr__`), 381-401 (`frames`), 450-461 (`activity`), `polydata.py` 678-707 (`to_ak`).
-/

namespace PM

/-! ## maps of names -/

/-- A map of names, `_attr_map_`, in order of insertion. -/
abbrev NameMap := List (String × String)

/-- `m.get(k)`. -/
def nget (m : NameMap) (k : String) : Option String := (m.find? fun p => p.1 = k).map Prod.snd

/-- `m[k] = v`. -/
def nset (m : NameMap) (k v : String) : NameMap :=
  if m.any fun p => p.1 = k then m.map fun p => if p.1 = k then (k, v) else p else m ++ [(k, v)]

/-- `m.update(b)`. -/
def nupdate (m b : NameMap) : NameMap := b.foldl (fun m p => nset m p.1 p.2) m

/-- The map of a new class, abcdata.py 24-28; `own` is the map in the body of the class, `bases` are those of its bases in order. -/
def mergeMaps (own : NameMap) (bases : List NameMap) : NameMap := bases.foldl nupdate own

/-! ## setters of `CellData` -/

section
variable {V : Type}

/-- The value of `frames`: one frame (a matrix or a `ReferenceFrame` of one frame), or an array of frames. -/
inductive CellFrames (V : Type) where
  | one (f : V)
  | many (fs : List V)

/-- `atleast3d`, celldata.py 395. -/
def CellFrames.rows : CellFrames V → List V
  | .one f => [f]
  | .many fs => fs

/-- The setter of `frames`, celldata.py 381-401; `none`: the assertion of line 399. -/
def setCellFrames (db : Dict V) (a : CellFrames V) : Option (Dict V) :=
  match a.rows with
  | [f] => dbSet db "_frames" (List.replicate (dlen db) f)
  | fs => if fs.length = dlen db then dbSet db "_frames" fs else none

/-- The setter of `activity`, celldata.py 450-461: one boolean is repeated. -/
def setActivity (db : Dict V) : Arg V → Option (Dict V)
  | .arr a => dbSet db "_activity" a
  | .num v => dbSet db "_activity" (List.replicate (dlen db) v)
  | .other => none

/-! ## awkward arrays of a database -/

/-- `to_akrecord`, akwrap.py 140-152. -/
def toAkRecord (zip : Dict V → Option (Dict V)) (db : Dict V) (args : List String) (fields : Option FieldsArg) : Option (Dict V) :=
  (toDict db args fields).bind zip

/-- `to_akarray`, akwrap.py 126-138; `ak.from_iter` keeps the records. -/
def toAkArray (zip : Dict V → Option (Dict V)) (db : Dict V) (args : List String) (fields : Option FieldsArg) :
    Option (List (List (String × V))) := toList zip db args fields

/-- `to_ak`, akwrap.py 102-124: the records of what is returned. -/
def toAk (zip : Dict V → Option (Dict V)) (db : Dict V) (args : List String) (fields : Option FieldsArg) (asarray : Bool) :
    Option (List (List (String × V))) :=
  if asarray then toAkArray zip db args fields else (toAkRecord zip db args fields).map rowsOf

/-- The list `fields` of the caller after `to_dict`, `to_list` and what calls them: `fields.extend(args)`, akwrap.py 171, 201. -/
def fieldsAfter (l args : List String) : List String := l ++ args

/-- `to_ak` of a mesh, polydata.py 678-707. `to_lists` takes no positional arguments: a `TypeError`. -/
def meshToAk (zip : Dict V → Option (Dict V)) (m : List (DBlock V)) (p : List Nat) (args : List String)
    (pointNames cellNames : Option (List String)) : Option (List (List (String × V)) × List (List (String × V))) :=
  if args = [] then toLists zip m p pointNames cellNames else none

end

/-! ## attributes of `CellData` -/

section
variable {K : Type} [Field K]

/-- A column of a database: numbers, rows of numbers, or something with more dimensions. -/
inductive Column (K : Type) where
  | flat (l : List K)
  | rows (nD : Nat) (l : List (List K))
  | deep

/-- The average over the cells, celldata.py 282-284 and utils.py 709-713: an exception for anything but rows of numbers. -/
def columnAvg (nodes : Topo) : Column K → Option (Column K)
  | .flat l => (avgCellData 1 (l.map fun x => [x]) 1 nodes).map (.rows 1)
  | .rows nD l => (avgCellData 2 l nD nodes).map (.rows nD)
  | .deep => none

/-- `col.fields` and `col[name]`. -/
def cget (d : List (String × Column K)) (k : String) : Option (Column K) := (d.find? fun p => p.1 = k).map Prod.snd

/-- `cd.name` for a name that is no member of the class, celldata.py 270-291: a field of the cells, or else the average of a field of the
attached points. `none`: `AttributeError`. Names of members of awkward arrays are left out. -/
def cellAttr (cells : List (String × Column K)) (points : Option (List (String × Column K))) (nodes : Topo) (name : String) :
    Option (Column K) :=
  match cget cells name with
  | some c => some c
  | none => points.bind fun p => (cget p name).bind (columnAvg nodes)

end
end PM
