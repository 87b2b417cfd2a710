import Verif.Attrs
import Verif.PropsDatabase
import Verif.PropsAverages

/-!
# C125: names and attributes of databases
-/

namespace PM

/-! ## maps of names -/

theorem nget_cons (p : String × String) (m : NameMap) (k : String) : nget (p :: m) k = if p.1 = k then some p.2 else nget m k := by
  simp only [nget, List.find?_cons]
  by_cases h : p.1 = k <;> simp [h]

theorem nget_map (m : NameMap) (k v k' : String) :
    nget (m.map fun p => if p.1 = k then (k, v) else p) k' =
      if k = k' then (nget m k).map (fun _ => v) else nget m k' := by
  induction m with
  | nil => simp [nget]
  | cons p m ih =>
    rw [List.map_cons, nget_cons, ih, nget_cons, nget_cons]
    by_cases h : p.1 = k <;> by_cases h' : k = k' <;> simp_all
    rw [if_neg (Ne.symm h')]

theorem nget_append (m : NameMap) (p : String × String) (k : String) :
    nget (m ++ [p]) k = (nget m k).or (if p.1 = k then some p.2 else none) := by
  induction m with
  | nil => simp [nget_cons]; simp [nget]
  | cons q m ih => rw [List.cons_append, nget_cons, nget_cons, ih]; by_cases h : q.1 = k <;> simp [h]

theorem nget_isSome (m : NameMap) (k : String) : (nget m k).isSome = m.any fun p => p.1 = k := by
  induction m with
  | nil => rfl
  | cons p m ih => rw [nget_cons, List.any_cons, ← ih]; by_cases h : p.1 = k <;> simp [h]

theorem nget_nset (m : NameMap) (k v k' : String) : nget (nset m k v) k' = if k = k' then some v else nget m k' := by
  have hs := nget_isSome m k
  unfold nset
  by_cases h : (m.any fun p => p.1 = k) = true
  · rw [if_pos h, nget_map]
    rw [h] at hs
    obtain ⟨w, hw⟩ := Option.isSome_iff_exists.1 hs
    rw [hw]; rfl
  · rw [if_neg h, nget_append]
    by_cases h' : k = k'
    · subst h'
      have : nget m k = none := by
        cases hg : nget m k with
        | none => rfl
        | some w => rw [hg] at hs; exact absurd hs.symm (by simpa using h)
      simp [this]
    · simp [h']

/-- The maps have names at most once, as dictionaries do. -/
def IsDict (m : NameMap) : Prop := (m.map Prod.fst).Nodup

theorem nget_nupdate {b : NameMap} (hb : IsDict b) : ∀ (m : NameMap) (k : String), nget (nupdate m b) k = (nget b k).or (nget m k) := by
  unfold IsDict at hb
  induction b with
  | nil => intro m k; simp [nupdate, nget]
  | cons p b ih =>
    intro m k
    rw [List.map_cons, List.nodup_cons] at hb
    rw [nupdate, List.foldl_cons, ← nupdate, ih hb.2, nget_nset, nget_cons]
    by_cases h : p.1 = k
    · have : nget b k = none := by
        cases hg : nget b k with
        | none => rfl
        | some w =>
          have hs := nget_isSome b k
          rw [hg] at hs
          obtain ⟨q, hq, hqk⟩ := List.any_eq_true.1 hs.symm
          exact absurd (List.mem_map.2 ⟨q, hq, by simpa [h] using hqk⟩) hb.1
      simp [h, this]
    · simp [h]

/-- The name of a field: the one given by the last base that has it, or else by the class. -/
def lastOf (own : NameMap) (bases : List NameMap) (k : String) : Option String :=
  (bases.reverse.findSome? fun b => nget b k).or (nget own k)

theorem nget_merge (own : NameMap) (bases : List NameMap) (hb : ∀ b ∈ bases, IsDict b) (k : String) :
    nget (mergeMaps own bases) k = lastOf own bases k := by
  unfold mergeMaps lastOf
  induction bases generalizing own with
  | nil => simp
  | cons b bases ih =>
    rw [List.foldl_cons, ih _ fun c hc => hb c (List.mem_cons_of_mem _ hc), nget_nupdate (hb b List.mem_cons_self),
      List.reverse_cons, List.findSome?_append]
    simp only [List.findSome?_cons, List.findSome?_nil]
    cases List.findSome? (fun b => nget b k) bases.reverse <;> cases nget b k <;> rfl

/-- **C125** (maps): a class knows exactly the names that itself or one of its bases knows. A name known to one of these maps only, or with
one meaning in all of them, has this meaning. -/
theorem C125_maps (own : NameMap) (bases : List NameMap) (hb : ∀ b ∈ bases, IsDict b) (k : String) :
    ((∃ v, nget (mergeMaps own bases) k = some v) ↔ ∃ m ∈ own :: bases, ∃ v, nget m k = some v) ∧
    ∀ v, (∃ m ∈ own :: bases, nget m k = some v) → (∀ m ∈ own :: bases, ∀ w, nget m k = some w → w = v) →
      nget (mergeMaps own bases) k = some v := by
  have key : ∀ w, nget (mergeMaps own bases) k = some w → ∃ m ∈ own :: bases, nget m k = some w := by
    intro w hw
    rw [nget_merge own bases hb, lastOf, Option.or_eq_some_iff] at hw
    rcases hw with hw | ⟨-, hw⟩
    · obtain ⟨m, hm, h⟩ := List.exists_of_findSome?_eq_some hw
      exact ⟨m, List.mem_cons_of_mem _ (List.mem_reverse.1 hm), h⟩
    · exact ⟨own, List.mem_cons_self, hw⟩
  have key2 : (∃ m ∈ own :: bases, ∃ v, nget m k = some v) → ∃ v, nget (mergeMaps own bases) k = some v := by
    rintro ⟨m, hm, v, hv⟩
    rw [nget_merge own bases hb, lastOf]
    cases hf : bases.reverse.findSome? fun b => nget b k with
    | some w => exact ⟨w, rfl⟩
    | none =>
      rw [List.findSome?_eq_none_iff] at hf
      rcases List.mem_cons.1 hm with rfl | hm
      · exact ⟨v, by simp [hv]⟩
      · rw [hf m (List.mem_reverse.2 hm)] at hv; cases hv
  refine ⟨⟨?_, key2⟩, ?_⟩
  · rintro ⟨v, hv⟩
    obtain ⟨m, hm, h⟩ := key v hv
    exact ⟨m, hm, v, h⟩
  · rintro v ⟨m, hm, hv⟩ huniq
    obtain ⟨w, hw⟩ := key2 ⟨m, hm, v, hv⟩
    obtain ⟨m', hm', h'⟩ := key w hw
    rw [hw, huniq m' hm' w h']

/-- **C125** is false for a class that gives a name another meaning: the meaning of the base is kept. -/
theorem C125_override_false :
    nget (mergeMaps [("nodes", "_cells")] [[("nodes", "_nodes"), ("id", "_id")]]) "nodes" = some "_nodes" := by decide +kernel

example : mergeMaps [("x", "_x")] [[("nodes", "_nodes")], [("nodes", "_topo"), ("t", "_t")]] =
    [("x", "_x"), ("nodes", "_topo"), ("t", "_t")] := by decide +kernel

/-! ## setters -/

section
variable {V : Type}

/-- **C125** (frames): one frame is the frame of every cell; as many frames as cells are those of the cells in order; anything else is refused.
No other column changes. -/
theorem C125_frames (db : Dict V) (a : CellFrames V) :
    (∀ f, a = .one f ∨ a = .many [f] → ∃ db', setCellFrames db a = some db' ∧
      (∃ col, dget db' "_frames" = some col ∧ col.length = dlen db ∧ ∀ i < dlen db, col[i]? = some f) ∧
      ∀ k, k ≠ "_frames" → dget db' k = dget db k) ∧
    (∀ fs, a = .many fs → fs.length = dlen db → ∃ db', setCellFrames db a = some db' ∧ dget db' "_frames" = some fs ∧
      ∀ k, k ≠ "_frames" → dget db' k = dget db k) ∧
    (∀ fs, a = .many fs → fs.length ≠ dlen db → fs.length ≠ 1 → setCellFrames db a = none) := by
  have key : ∀ col : List V, col.length = dlen db → ∃ db', dbSet db "_frames" col = some db' ∧ dget db' "_frames" = some col ∧
      ∀ k, k ≠ "_frames" → dget db' k = dget db k := by
    intro col h
    refine ⟨_, by rw [dbSet, if_pos h], by rw [dget_dset, if_pos rfl], ?_⟩
    intro k hk
    rw [dget_dset, if_neg (Ne.symm hk)]
  refine ⟨?_, ?_, ?_⟩
  · intro f hf
    obtain ⟨db', h1, h2, h3⟩ := key (List.replicate (dlen db) f) (by simp)
    refine ⟨db', ?_, ⟨_, h2, by simp, fun i hi => List.getElem?_replicate_of_lt hi⟩, h3⟩
    rcases hf with rfl | rfl <;> exact h1
  · rintro fs rfl h
    match fs, h with
    | [f], h =>
      obtain ⟨db', h1, h2, h3⟩ := key [f] h
      refine ⟨db', ?_, h2, h3⟩
      rw [← h1]
      simp only [setCellFrames, CellFrames.rows]
      rw [← h]; rfl
    | [], h =>
      obtain ⟨db', h1, h2, h3⟩ := key [] h
      refine ⟨db', ?_, h2, h3⟩
      simp only [setCellFrames, CellFrames.rows]
      rw [if_pos h, h1]
    | f :: g :: fs, h =>
      obtain ⟨db', h1, h2, h3⟩ := key _ h
      refine ⟨db', ?_, h2, h3⟩
      simp only [setCellFrames, CellFrames.rows]
      rw [if_pos h, h1]
  · rintro fs rfl h h1
    match fs, h, h1 with
    | [f], h, h1 => exact absurd rfl h1
    | [], h, h1 => simp only [setCellFrames, CellFrames.rows]; rw [if_neg h]
    | f :: g :: fs, h, h1 => simp only [setCellFrames, CellFrames.rows]; rw [if_neg h]

example : setCellFrames (V := ℕ) [("_nodes", [5, 6, 7])] (.one 1) = some [("_nodes", [5, 6, 7]), ("_frames", [1, 1, 1])] := by decide +kernel
example : setCellFrames (V := ℕ) [("_nodes", [5, 6, 7])] (.many [1, 2]) = none := by decide +kernel

/-- **C125** (activity): one value is that of every cell, an array is stored. -/
theorem C125_activity (db : Dict V) (v : V) (a : List V) (h : a.length = dlen db) :
    (∃ db', setActivity db (.num v) = some db' ∧
      (∃ col, dget db' "_activity" = some col ∧ col.length = dlen db ∧ ∀ i < dlen db, col[i]? = some v)) ∧
    (∃ db', setActivity db (.arr a) = some db' ∧ dget db' "_activity" = some a) := by
  refine ⟨⟨_, by simp only [setActivity, dbSet]; rw [if_pos (by simp)],
    _, by rw [dget_dset, if_pos rfl], by simp, fun i hi => List.getElem?_replicate_of_lt hi⟩,
    ⟨_, by simp only [setActivity, dbSet]; rw [if_pos h], by rw [dget_dset, if_pos rfl]⟩⟩

/-! ## awkward arrays -/

/-- **C125** (arrays): both forms of the data hold the same records. -/
theorem C125_forms_partial {zip : Dict V → Option (Dict V)} (hz : ZipOK zip) (db : Dict V) (N : Nat) (ok : DbOK db N)
    (args : List String) (fields : Option (List String)) (hn : (fields.getD [] ++ args).Nodup)
    (hin : ∀ f ∈ fields.getD [] ++ args, f ∈ db.map Prod.fst) (hne : fields.getD [] ++ args ≠ [] ∨ fields = none) :
    toAk zip db args (fields.map .list) true = toAk zip db args (fields.map .list) false ∧
    toAk zip db args (fields.map .list) true =
      some (recordsOf db N (if fields.getD [] ++ args = [] then db.map Prod.fst else fields.getD [] ++ args)) := by
  have hrec : ∀ names : List String, names.Nodup → names ≠ [] → (∀ f ∈ names, f ∈ db.map Prod.fst) →
      ((selectFields db names).bind zip).map rowsOf = some (recordsOf db N names) := by
    intro names h1 h2 h3
    rw [← listOfFields_select hz ok.len h3 h1 h2]
    obtain ⟨r, hr, -, -, h4⟩ := select_some db names h3
    have hrne : r ≠ [] := by
      rintro rfl
      exact h2 (h4 h1).symm
    rw [hr, Option.bind_some, Option.bind_some, listOfFields, akInit]
    simp only [akFields, addArgs, List.foldl_nil, List.isEmpty_iff, hrne, if_false]
    cases zip r <;> rfl
  have hall := hrec (db.map Prod.fst) ok.nodup (by simpa using ok.ne) (fun f hf => hf)
  cases fields with
  | none =>
    simp only [Option.getD_none, List.nil_append] at hn hin hne ⊢
    have hlist := C90_list_partial hz db N ok.nodup ok.len ok.ne args []
    by_cases ha : args = []
    · subst ha
      have e1 : toAk zip db [] (Option.map FieldsArg.list none) true = some (recordsOf db N (db.map Prod.fst)) := hlist.1
      have e2 : toAk zip db [] (Option.map FieldsArg.list none) false = some (recordsOf db N (db.map Prod.fst)) := by
        rw [← hall]; rfl
      rw [e1, e2]; simp
    · have e1 : toAk zip db args (Option.map FieldsArg.list none) true = some (recordsOf db N args) := hlist.2.2.1 hn ha hin
      have e2 : toAk zip db args (Option.map FieldsArg.list none) false = some (recordsOf db N args) := by
        rw [← hrec args hn ha hin]
        simp only [toAk, toAkRecord, toDict, Option.map_none, List.isEmpty_iff, ha, if_false, Bool.false_eq_true]
      rw [e1, e2, if_neg ha]; simp
  | some l =>
    simp only [Option.getD_some] at hn hin hne ⊢
    have hla : l ++ args ≠ [] := by simpa using hne
    have hlist := C90_list_partial hz db N ok.nodup ok.len ok.ne args l
    have e1 : toAk zip db args (Option.map FieldsArg.list (some l)) true = some (recordsOf db N (l ++ args)) := hlist.2.1 hn hla hin
    have e2 : toAk zip db args (Option.map FieldsArg.list (some l)) false = some (recordsOf db N (l ++ args)) := by
      rw [← hrec _ hn hla hin]
      simp only [toAk, toAkRecord, toDict, Option.map_some, List.isEmpty_iff, hla, if_false, Bool.false_eq_true]
    rw [e1, e2, if_neg hla]; simp

/-- **C125** is false for an empty list of names: the record has all columns, the array cannot be made. -/
theorem C125_forms_false {zip : Dict V → Option (Dict V)} (hz : ZipOK zip) (db : Dict V) (N : Nat) (ok : DbOK db N) :
    toAk zip db [] (some (.list [])) true = none ∧
    toAk zip db [] (some (.list [])) false = some (recordsOf db N (db.map Prod.fst)) := by
  refine ⟨rfl, ?_⟩
  obtain ⟨h1, h2⟩ := C125_forms_partial hz db N ok [] none (by simp) (by simp) (Or.inr rfl)
  rw [h2] at h1
  exact h1.symm

/-- **C125** is false for the list of names of the caller: the other names are appended to it. -/
theorem C125_caller_false (l args : List String) : (fieldsAfter l args).take l.length = l ∧ (fieldsAfter l args).drop l.length = args ∧
    (args ≠ [] → fieldsAfter l args ≠ l) := by
  refine ⟨by simp [fieldsAfter], by simp [fieldsAfter], fun h => ?_⟩
  simpa [fieldsAfter] using h

/-- **C125** (meshes): the arrays of a mesh are the records of the points and of the cells of its blocks, block after block; -/
theorem C125_mesh_partial {zip : Dict V → Option (Dict V)} (hz : ZipOK zip) (m : List (DBlock V)) (p : List Nat) (size : Dict V → Nat)
    (pn cn : Option (List String))
    (hp : databasesUnder DBlock.pd m p ≠ []) (hc : databasesUnder DBlock.cd m p ≠ [])
    (hpo : ∀ db ∈ databasesUnder DBlock.pd m p, DbOK db (size db)) (hco : ∀ db ∈ databasesUnder DBlock.cd m p, DbOK db (size db))
    (hpn : ∀ l, pn = some l → l.Nodup ∧ l ≠ [] ∧ ∀ db ∈ databasesUnder DBlock.pd m p, ∀ f ∈ l, f ∈ db.map Prod.fst)
    (hcn : ∀ l, cn = some l → l.Nodup ∧ l ≠ [] ∧ ∀ db ∈ databasesUnder DBlock.cd m p, ∀ f ∈ l, f ∈ db.map Prod.fst) :
    meshToAk zip m p [] pn cn = some
      ((databasesUnder DBlock.pd m p).flatMap fun db => recordsOf db (size db) (pn.getD (db.map Prod.fst)),
       (databasesUnder DBlock.cd m p).flatMap fun db => recordsOf db (size db) (cn.getD (db.map Prod.fst))) := by
  rw [meshToAk, if_pos rfl]
  exact C91_lists_partial hz m p size pn cn hp hc hpo hco hpn hcn

/-- positional arguments, although accepted, always fail; -/
theorem C125_args_false (zip : Dict V → Option (Dict V)) (m : List (DBlock V)) (p : List Nat) (args : List String) (h : args ≠ [])
    (pn cn : Option (List String)) : meshToAk zip m p args pn cn = none := by
  rw [meshToAk, if_neg h]

/-- and the call of the documentation, `point_fields=['x']`, fails for points stored by `PointData`, which calls the coordinates `_x`. -/
theorem C125_example_false {zip : Dict V → Option (Dict V)} (hz : ZipOK zip) (yes : V) (x : List V) (path : List Nat) (cd : Option (Dict V))
    (cn : Option (List String)) :
    ∃ db, pointInit zip yes x none [] [] = some (some db) ∧ meshToAk zip [⟨path, some db, cd⟩] path [] (some ["x"]) cn = none := by
  have e : pointInit zip yes x none [] [] = some (some [("_x", x), ("_activity", List.replicate x.length yes)]) := by
    have hd : akFields (pointFields yes x none [] []) [] = [("_x", x), ("_activity", List.replicate x.length yes)] := by
      simp [akFields, addArgs, pointFields, dset]
    rw [pointInit, akInit]
    simp only [hd, List.isEmpty_cons, Bool.false_eq_true, if_false]
    rw [hz _ x.length (by simp) (by simp)]; rfl
  refine ⟨_, e, ?_⟩
  have hs : selectFields [("_x", x), ("_activity", List.replicate x.length yes)] ["x"] = none :=
    select_none _ _ ⟨"x", by simp, by simp⟩
  have : dblocks true [(⟨path, some [("_x", x), ("_activity", List.replicate x.length yes)], cd⟩ : DBlock V)] path =
      [⟨path, some [("_x", x), ("_activity", List.replicate x.length yes)], cd⟩] := by
    simp [dblocks]
  simp [meshToAk, toLists, this, listsOf, listOfBlock, hs]

end

/-! ## attributes -/

section
variable {K : Type} [Field K]

/-- **C125** (attributes): a field of the cells is returned as it is, whatever the points have; -/
theorem C125_cells_first (cells : List (String × Column K)) (points : Option (List (String × Column K))) (nodes : Topo) (name : String)
    (c : Column K) (h : cget cells name = some c) : cellAttr cells points nodes name = some c := by
  simp [cellAttr, h]

/-- otherwise a field of the points with rows of numbers is averaged: each cell has the mean of the rows of its nodes; -/
theorem C125_average_partial [CharZero K] (cells : List (String × Column K)) (points : List (String × Column K)) (nodes : Topo)
    (name : String) (h : cget cells name = none) (nD : Nat) (data : List (List K)) (hp : cget points name = some (.rows nD data))
    (hin : ∀ n, UsesNode nodes n → n < data.length) (hne : ∀ r ∈ nodes, r ≠ []) :
    ∃ A, cellAttr cells (some points) nodes name = some (.rows nD A) ∧ A.length = nodes.length ∧
      ∀ (c : Nat) (row : List Nat) (a : List K), nodes[c]? = some row → A[c]? = some a →
        IsMean (row.map fun n => data.getD n []) nD a := by
  obtain ⟨A, h1, h2, h3⟩ := C26_avg_partial (nD := nD) hin hne
  exact ⟨A, by simp [cellAttr, h, hp, columnAvg, h1], h2, h3⟩

/-- other names are refused. -/
theorem C125_unknown (cells : List (String × Column K)) (points : Option (List (String × Column K))) (nodes : Topo)
    (name : String) (h : ∀ c, (name, c) ∉ cells) (hp : ∀ p, points = some p → ∀ c, (name, c) ∉ p) :
    cellAttr cells points nodes name = none := by
  have key : ∀ d : List (String × Column K), (∀ c, (name, c) ∉ d) → cget d name = none := by
    intro d hd
    simp only [cget, Option.map_eq_none_iff, List.find?_eq_none, decide_eq_true_eq]
    rintro ⟨k, c⟩ hk rfl
    exact hd c hk
  cases points with
  | none => simp [cellAttr, key cells h]
  | some p => simp [cellAttr, key cells h, key p (hp p rfl)]

/-- **C125** is false for fields of the points with one number per point: the name is said not to exist. -/
theorem C125_average_false (cells : List (String × Column K)) (points : List (String × Column K)) (nodes : Topo)
    (name : String) (h : cget cells name = none) (data : List K) (hp : cget points name = some (.flat data)) :
    cellAttr cells (some points) nodes name = none := by
  simp [cellAttr, h, hp, columnAvg, avgCellData]

end

/-- Two triangles with a field of their own, and the displacements of four points. -/
example : (match cellAttr [("density", Column.flat [1, 2])] (some [("u", .rows 2 [[0, 1], [3, 1], [6, 1], [0, 4]]), ("T", .flat [1, 2, 3, 4])])
      [[0, 1, 2], [0, 1, 3]] "u" with
    | some (.rows 2 A) => A
    | _ => ([] : List (List ℚ))) = [[3, 1], [1, 2]] := by decide +kernel

end PM
