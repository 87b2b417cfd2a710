import Verif.Database
import Verif.TopoLemmas

/-!
# C90, C91: databases of points and cells
-/

namespace PM

section
variable {V : Type}

/-! ## specification -/

/-- What is assumed of `ak.zip`: columns with different names and equal lengths are kept as they are. -/
def ZipOK (zip : Dict V → Option (Dict V)) : Prop :=
  ∀ (d : Dict V) (N : Nat), (d.map Prod.fst).Nodup → (∀ p ∈ d, p.2.length = N) → zip d = some d

/-- The array given as the keyword argument `key`. -/
def kwArr (kwargs : List (String × Arg V)) (key : String) : Option (List V) :=
  match (kwargs.find? fun p => p.1 = key).map Prod.snd with
  | some (.arr a) => some a
  | _ => none

/-- The column given by an array or by one number for `N` rows. -/
def columnOf (N : Nat) : Option (Arg V) → Option (List V)
  | some (.arr a) => some a
  | some (.num v) => some (List.replicate N v)
  | _ => none

/-- The names under which the documented fields of cells are stored. -/
def storedName (k : String) : String :=
  if k ∈ ["nodes", "frames", "ndf", "id", "areas", "t", "activity"] then "_" ++ k else k

/-- All arrays of a list of keyword arguments have length `N`. -/
def ArgsLen (N : Nat) (kwargs : List (String × Arg V)) : Prop := ∀ k a, (k, Arg.arr a) ∈ kwargs → a.length = N

/-- The records of the rows with the given names. -/
def recordsOf (db : Dict V) (N : Nat) (names : List String) : List (List (String × V)) :=
  (List.range N).map fun i => names.filterMap fun f => ((dget db f).bind fun c => c[i]?).map fun v => (f, v)

/-! ## dictionaries -/

theorem dget_cons (p : String × List V) (d : Dict V) (k : String) : dget (p :: d) k = if p.1 = k then some p.2 else dget d k := by
  unfold dget
  by_cases h : p.1 = k <;> simp [h]

theorem dget_append (d e : Dict V) (k : String) : dget (d ++ e) k = (dget d k).or (dget e k) := by
  induction d with
  | nil => simp [dget]
  | cons p d ih =>
    rw [List.cons_append, dget_cons, dget_cons, ih]
    by_cases h : p.1 = k <;> simp [h]

theorem dget_eq_none {d : Dict V} {k : String} : dget d k = none ↔ k ∉ d.map Prod.fst := by
  induction d with
  | nil => simp [dget]
  | cons p d ih =>
    rw [dget_cons, List.map_cons, List.mem_cons, not_or]
    by_cases h : p.1 = k
    · simp [h]
    · rw [if_neg h, ih]
      exact ⟨fun h' => ⟨fun e => h e.symm, h'⟩, fun h' => h'.2⟩

theorem dget_replace (d : Dict V) (k k' : String) (v : List V) (h : ∃ p ∈ d, p.1 = k) :
    dget (d.map fun p => if p.1 = k then (k, v) else p) k' = if k = k' then some v else dget d k' := by
  induction d with
  | nil => simp at h
  | cons p d ih =>
    rw [List.map_cons, dget_cons, dget_cons]
    by_cases hp : p.1 = k
    · simp only [if_pos hp]
      by_cases hk : k = k'
      · simp [hk]
      · rw [if_neg hk, if_neg hk, if_neg (by rw [hp]; exact hk)]
        by_cases hd : ∃ q ∈ d, q.1 = k
        · rw [ih hd, if_neg hk]
        · have : (d.map fun p => if p.1 = k then (k, v) else p) = d := by
            conv_rhs => rw [← List.map_id d]
            apply List.map_congr_left
            intro q hq
            rw [if_neg fun e => hd ⟨q, hq, e⟩]
            rfl
          rw [this]
    · simp only [if_neg hp]
      by_cases hk : p.1 = k'
      · rw [if_pos hk, if_pos hk, if_neg]
        rintro rfl
        exact hp hk
      · rw [if_neg hk, if_neg hk]
        apply ih
        obtain ⟨q, hq, e⟩ := h
        rcases List.mem_cons.1 hq with rfl | hq
        · exact absurd e hp
        · exact ⟨q, hq, e⟩

theorem dget_dset (d : Dict V) (k k' : String) (v : List V) : dget (dset d k v) k' = if k = k' then some v else dget d k' := by
  unfold dset
  by_cases h : d.any fun p => p.1 = k
  · rw [if_pos h]
    apply dget_replace
    simpa using h
  · rw [if_neg h, dget_append, dget_cons]
    have hn : k ∉ d.map Prod.fst := by
      intro hk
      obtain ⟨p, hp, e⟩ := List.mem_map.1 hk
      exact h (List.any_eq_true.2 ⟨p, hp, by simpa using e⟩)
    by_cases hk : k = k'
    · subst hk
      rw [if_pos rfl, if_pos rfl, dget_eq_none.2 hn]
      rfl
    · rw [if_neg hk, if_neg hk]
      cases dget d k' <;> rfl

theorem keys_dset (d : Dict V) (k : String) (v : List V) :
    (dset d k v).map Prod.fst = if k ∈ d.map Prod.fst then d.map Prod.fst else d.map Prod.fst ++ [k] := by
  have e : (d.any fun p => decide (p.1 = k)) = true ↔ k ∈ d.map Prod.fst := by simp
  unfold dset
  by_cases h : k ∈ d.map Prod.fst
  · rw [if_pos (e.2 h), if_pos h, List.map_map]
    apply List.map_congr_left
    intro p _
    simp only [Function.comp]
    split
    · next h => exact h.symm
    · rfl
  · rw [if_neg fun h' => h (e.1 h'), if_neg h, List.map_append]
    rfl

theorem nodup_dset {d : Dict V} (h : (d.map Prod.fst).Nodup) (k : String) (v : List V) : ((dset d k v).map Prod.fst).Nodup := by
  rw [keys_dset]
  split
  · exact h
  · next hk =>
    rw [List.nodup_append]
    refine ⟨h, by simp, ?_⟩
    intro a ha b hb
    rw [List.mem_singleton] at hb
    subst hb
    rintro rfl
    exact hk ha

theorem len_dset {d : Dict V} {N : Nat} (h : ∀ p ∈ d, p.2.length = N) {k : String} {v : List V} (hv : v.length = N) :
    ∀ p ∈ dset d k v, p.2.length = N := by
  intro p hp
  unfold dset at hp
  split at hp
  · obtain ⟨q, hq, rfl⟩ := List.mem_map.1 hp
    split
    · exact hv
    · exact h q hq
  · rcases List.mem_append.1 hp with hp | hp
    · exact h p hp
    · rw [List.mem_singleton] at hp
      subst hp
      exact hv

theorem dset_ne_nil (d : Dict V) (k : String) (v : List V) : dset d k v ≠ [] := by
  intro h
  have := dget_dset d k k v
  rw [h] at this
  simp [dget] at this

theorem dlen_eq {d : Dict V} {N : Nat} (h : ∀ p ∈ d, p.2.length = N) (hne : d ≠ []) : dlen d = N := by
  cases d with
  | nil => exact absurd rfl hne
  | cons p d => exact h p List.mem_cons_self

/-- The three facts kept by all steps: different names, equal lengths, the columns. -/
structure Good (N : Nat) (d : Dict V) (f : String → Option (List V)) : Prop where
  nodup : (d.map Prod.fst).Nodup
  len : ∀ p ∈ d, p.2.length = N
  get : ∀ k, dget d k = f k

theorem Good.set {N : Nat} {d : Dict V} {f : String → Option (List V)} (h : Good N d f) {k : String} {v : List V} (hv : v.length = N) :
    Good N (dset d k v) fun k' => if k = k' then some v else f k' :=
  ⟨nodup_dset h.nodup _ _, len_dset h.len hv, fun k' => by rw [dget_dset, h.get]⟩

theorem kwArr_cons (p : String × Arg V) (l : List (String × Arg V)) (key : String) :
    kwArr (p :: l) key = if p.1 = key then (match p.2 with | .arr a => some a | _ => none) else kwArr l key := by
  unfold kwArr
  by_cases h : p.1 = key
  · simp only [List.find?_cons, h, decide_true, Option.map_some, if_true]
    cases p.2 <;> rfl
  · simp only [List.find?_cons, h, decide_false, if_false]

theorem kwArr_none {l : List (String × Arg V)} {key : String} (h : key ∉ l.map Prod.fst) : kwArr l key = none := by
  induction l with
  | nil => rfl
  | cons p l ih =>
    rw [List.map_cons, List.mem_cons, not_or] at h
    rw [kwArr_cons, if_neg fun e => h.1 e.symm, ih h.2]

theorem Good.args {N : Nat} {d : Dict V} {f : String → Option (List V)} (h : Good N d f) {kwargs : List (String × Arg V)}
    (hn : (kwargs.map Prod.fst).Nodup) (hl : ArgsLen N kwargs) {keep : List V → Bool} (hk : ∀ a : List V, a.length = N → keep a = true) :
    Good N (addArgs keep d kwargs) fun key => (kwArr kwargs key).or (f key) := by
  induction kwargs generalizing d f with
  | nil => exact ⟨h.nodup, h.len, fun k => by rw [kwArr_none (by simp)]; exact h.get k⟩
  | cons p l ih =>
    rw [List.map_cons, List.nodup_cons] at hn
    have hl' : ArgsLen N l := fun k a hka => hl k a (List.mem_cons_of_mem _ hka)
    obtain ⟨k, v⟩ := p
    match v, hl with
    | .arr a, hl =>
      have ha : a.length = N := hl k a List.mem_cons_self
      have hs : Good N (dset d k a) _ := h.set ha
      have := ih hs hn.2 hl'
      have e : addArgs keep d ((k, Arg.arr a) :: l) = addArgs keep (dset d k a) l := by
        simp only [addArgs, List.foldl_cons, hk a ha, if_true]
      rw [e]
      refine ⟨this.nodup, this.len, fun key => ?_⟩
      rw [this.get, kwArr_cons]
      by_cases hkey : k = key
      · subst hkey
        rw [kwArr_none hn.1, if_pos rfl, if_pos rfl]
        rfl
      · simp [hkey]
    | .num w, _ =>
      have : Good N (addArgs keep d ((k, .num w) :: l)) _ := ih h hn.2 hl'
      refine ⟨this.nodup, this.len, fun key => ?_⟩
      rw [kwArr_cons]
      by_cases hkey : k = key
      · subst hkey
        have h2 := this.get k
        rw [kwArr_none hn.1] at h2
        simpa using h2
      · simpa [hkey] using this.get key
    | .other, _ =>
      have : Good N (addArgs keep d ((k, .other) :: l)) _ := ih h hn.2 hl'
      refine ⟨this.nodup, this.len, fun key => ?_⟩
      rw [kwArr_cons]
      by_cases hkey : k = key
      · subst hkey
        have h2 := this.get k
        rw [kwArr_none hn.1] at h2
        simpa using h2
      · simpa [hkey] using this.get key

theorem attrKey_eq (k : String) : attrKey k = storedName k := by
  unfold attrKey storedName
  by_cases h1 : k = "nodes"
  · subst h1; decide +kernel
  by_cases h2 : k = "frames"
  · subst h2; decide +kernel
  by_cases h3 : k = "ndf"
  · subst h3; decide +kernel
  by_cases h4 : k = "id"
  · subst h4; decide +kernel
  by_cases h5 : k = "areas"
  · subst h5; decide +kernel
  by_cases h6 : k = "t"
  · subst h6; decide +kernel
  by_cases h7 : k = "activity"
  · subst h7; decide +kernel
  simp [h1, h2, h3, h4, h5, h6, h7]

/-- The array of the dictionary `fields` that is stored under a name. -/
def fieldArr (fields : Dict V) (key : String) : Option (List V) := (fields.find? fun p => storedName p.1 = key).map Prod.snd

theorem fieldArr_none {l : Dict V} {key : String} (h : key ∉ l.map fun p => storedName p.1) : fieldArr l key = none := by
  unfold fieldArr
  rw [Option.map_eq_none_iff, List.find?_eq_none]
  intro p hp
  simp only [decide_eq_true_eq]
  rintro rfl
  exact h (List.mem_map.2 ⟨p, hp, rfl⟩)

theorem Good.rename {N : Nat} {fields : Dict V} (hn : (fields.map fun p => storedName p.1).Nodup) (hl : ∀ p ∈ fields, p.2.length = N) :
    Good N (renameFields fields) (fieldArr fields) := by
  have gen : ∀ (l : Dict V) (d : Dict V) (f : String → Option (List V)), Good N d f → (l.map fun p => storedName p.1).Nodup →
      (∀ p ∈ l, p.2.length = N) →
      Good N (l.foldl (fun d p => dset d (attrKey p.1) p.2) d) fun key => (fieldArr l key).or (f key) := by
    intro l
    induction l with
    | nil => intro d f h _ _; exact ⟨h.nodup, h.len, h.get⟩
    | cons p l ih =>
      intro d f h hn hl
      rw [List.map_cons, List.nodup_cons] at hn
      have := ih _ _ (h.set (k := attrKey p.1) (hl p List.mem_cons_self)) hn.2 fun q hq => hl q (List.mem_cons_of_mem _ hq)
      rw [List.foldl_cons]
      refine ⟨this.nodup, this.len, fun key => ?_⟩
      rw [this.get, attrKey_eq]
      by_cases hk : storedName p.1 = key
      · subst hk
        rw [fieldArr_none hn.1, if_pos rfl]
        simp [fieldArr]
      · simp [fieldArr, hk]
  have := gen fields [] (fun _ => none) ⟨by simp, by simp, fun _ => rfl⟩ hn hl
  exact ⟨this.nodup, this.len, fun k => by rw [renameFields, this.get]; simp⟩

/-! ## constructors -/

theorem akInit_good {zip : Dict V → Option (Dict V)} (hz : ZipOK zip) {N : Nat} {d : Dict V} {f : String → Option (List V)}
    {kwargs : List (String × Arg V)} (h : Good N d f) (hn : (kwargs.map Prod.fst).Nodup) (hl : ArgsLen N kwargs) (hne : ∃ k, f k ≠ none) :
    ∃ db, akInit zip d kwargs = some (some db) ∧ db ≠ [] ∧ Good N db fun key => (kwArr kwargs key).or (f key) := by
  have hg := h.args hn hl (keep := fun _ => true) fun _ _ => rfl
  have hne' : addArgs (fun _ => true) d kwargs ≠ [] := by
    intro he
    obtain ⟨k, hk⟩ := hne
    have h2 := hg.get k
    rw [he] at h2
    have : (kwArr kwargs k).or (f k) = none := h2.symm
    rw [Option.or_eq_none_iff] at this
    exact hk this.2
  refine ⟨_, ?_, hne', hg⟩
  unfold akInit akFields
  simp only [List.isEmpty_iff, hne', if_false]
  rw [hz _ N hg.nodup hg.len]
  rfl

theorem setColumn_good {N : Nat} {db : Dict V} {f : String → Option (List V)} (h : Good N db f) (hne : db ≠ []) {k : String}
    {a : Option (Arg V)} (ha : a ≠ some .other) (hl : ∀ v, a = some (.arr v) → v.length = N) :
    ∃ db', setColumn k db a = some db' ∧ db' ≠ [] ∧ Good N db' fun key => if key = k ∧ a ≠ none then columnOf N a else f key := by
  match a, ha, hl with
  | none, _, _ => exact ⟨db, rfl, hne, h.nodup, h.len, fun key => by simpa using h.get key⟩
  | some (.arr v), _, hl =>
    have hv := hl v rfl
    have hs := h.set (k := k) hv
    refine ⟨dset db k v, ?_, dset_ne_nil _ _ _, hs.nodup, hs.len, fun key => ?_⟩
    · rw [setColumn, dbSet, dlen_eq h.len hne, if_pos hv]
    · rw [hs.get]
      by_cases hk : k = key
      · simp [hk, columnOf]
      · simp [hk, Ne.symm hk]
  | some (.num v), _, _ =>
    have hv : (List.replicate N v).length = N := List.length_replicate
    have hs := h.set (k := k) hv
    refine ⟨dset db k (List.replicate N v), ?_, dset_ne_nil _ _ _, hs.nodup, hs.len, fun key => ?_⟩
    · rw [setColumn, dbSet, dlen_eq h.len hne, if_pos hv]
    · rw [hs.get]
      by_cases hk : k = key
      · simp [hk, columnOf]
      · simp [hk, Ne.symm hk]
  | some .other, ha, _ => exact absurd rfl ha

/-- The array given for an argument. -/
def arrOf : Option (Arg V) → Option (List V)
  | some (.arr a) => some a
  | _ => none

theorem Good.addArr {N : Nat} {d : Dict V} {f : String → Option (List V)} (h : Good N d f) {k : String} {a : Option (Arg V)}
    (hl : ∀ v, a = some (.arr v) → v.length = N) :
    Good N (addArr d k a) fun key => if key = k then (arrOf a).or (f key) else f key := by
  match a, hl with
  | some (.arr v), hl =>
    have hs := h.set (k := k) (hl v rfl)
    refine ⟨hs.nodup, hs.len, fun key => ?_⟩
    rw [PM.addArr, hs.get]
    by_cases hk : k = key
    · simp [hk, arrOf]
    · simp [hk, Ne.symm hk]
  | none, _ => exact ⟨h.nodup, h.len, fun key => by by_cases hk : key = k <;> simpa [arrOf, PM.addArr, hk] using h.get _⟩
  | some (.num _), _ => exact ⟨h.nodup, h.len, fun key => by by_cases hk : key = k <;> simpa [arrOf, PM.addArr, hk] using h.get _⟩
  | some .other, _ => exact ⟨h.nodup, h.len, fun key => by by_cases hk : key = k <;> simpa [arrOf, PM.addArr, hk] using h.get _⟩

/-- **C90** (cells): the database of cells has one column of the right length for every array that was given, and no other columns: the
nodes, the activity, the areas and thicknesses (one number is repeated), the keyword arguments, and the entries of `fields` under
the names they are stored. Keyword arguments prevail over the rest, areas and thicknesses over keyword arguments. -/
theorem C90_cells_partial {zip : Dict V → Option (Dict V)} (hz : ZipOK zip) (nodes : List V) (pos topo activity areas t : Option (Arg V))
    (fields : Dict V) (kwargs : List (String × Arg V)) (hnodes : pos = some (.arr nodes) ∨ pos = none ∧ topo = some (.arr nodes))
    (hfn : (fields.map fun p => storedName p.1).Nodup) (hfl : ∀ p ∈ fields, p.2.length = nodes.length)
    (hkn : (kwargs.map Prod.fst).Nodup) (hkl : ArgsLen nodes.length kwargs)
    (hact : ∀ v, activity = some (.arr v) → v.length = nodes.length)
    (har : ∀ v, areas = some (.arr v) → v.length = nodes.length) (har' : areas ≠ some .other)
    (ht : ∀ v, t = some (.arr v) → v.length = nodes.length) (ht' : t ≠ some .other) :
    ∃ db, cellInit zip pos topo activity areas t fields kwargs = some (some db) ∧ (db.map Prod.fst).Nodup ∧
      (∀ p ∈ db, p.2.length = nodes.length) ∧
      ∀ key, dget db key =
        if key = "_areas" ∧ areas ≠ none then columnOf nodes.length areas
        else if key = "_t" ∧ t ≠ none then columnOf nodes.length t
        else (kwArr kwargs key).or
          (if key = "_nodes" then some nodes else if key = "_activity" then (arrOf activity).or (fieldArr fields key) else fieldArr fields key) := by
  have hnd : nodesArg pos topo = some (.arr nodes) := by
    rcases hnodes with rfl | ⟨rfl, rfl⟩ <;> rfl
  have g1 := (Good.rename hfn hfl).addArr (k := "_activity") hact
  have g2 := g1.set (k := "_nodes") (v := nodes) rfl
  have g3 := g2.args hkn hkl (keep := fun a => decide (a.length = nodes.length)) fun a ha => by simpa using ha
  have g4 := g3.addArr (k := "_areas") har
  have e : cellFields pos topo activity areas fields kwargs = addArr (addArgs (fun a => decide (a.length = nodes.length))
      (dset (addArr (renameFields fields) "_activity" activity) "_nodes" nodes) kwargs) "_areas" areas := by
    simp only [cellFields, hnd]
  rw [← e] at g4
  obtain ⟨db, h1, h2, h3⟩ := akInit_good hz g4 hkn hkl ⟨"_nodes", by
    rw [if_neg (by decide), if_pos rfl]
    intro h
    rw [Option.or_eq_none_iff] at h
    simp at h⟩
  obtain ⟨db1, h4, h5, h6⟩ := setColumn_good h3 h2 (k := "_t") ht' ht
  obtain ⟨db2, h7, h8, h9⟩ := setColumn_good h6 h5 (k := "_areas") har' har
  refine ⟨db2, ?_, h9.nodup, h9.len, ?_⟩
  · rw [cellInit, h1]
    simp only [Option.bind_some, h4, h7, Option.map_some]
  · intro key
    rw [h9.get]
    by_cases hA : key = "_areas" ∧ areas ≠ none
    · rw [if_pos hA, if_pos hA]
    rw [if_neg hA, if_neg hA]
    by_cases hT : key = "_t" ∧ t ≠ none
    · rw [if_pos hT, if_pos hT]
    rw [if_neg hT, if_neg hT]
    by_cases hkA : key = "_areas"
    · subst hkA
      have : areas = none := by
        by_contra hc
        exact hA ⟨rfl, hc⟩
      subst this
      simp only [arrOf, if_true]
      cases hkw : kwArr kwargs "_areas" <;> simp
    · by_cases hn : key = "_nodes"
      · subst hn
        cases hkw : kwArr kwargs "_nodes" <;> simp
      · cases hkw : kwArr kwargs key <;> simp [hkA, hn, Ne.symm hn]

/-- A case: two cells with an activity, a constant thickness and a field. -/
example : cellInit (V := ℕ) some none (some (.arr [10, 11])) (some (.arr [1, 0])) none (some (.num 7)) [("id", [4, 5])]
    [("k", .arr [3, 3]), ("n", .num 5)] =
    some (some [("_id", [4, 5]), ("_activity", [1, 0]), ("_nodes", [10, 11]), ("k", [3, 3]), ("_t", [7, 7])]) := by decide +kernel

/-- **C90** (points): coordinates, activity (all active if it is not given), keyword arguments and the entries of `fields`. -/
theorem C90_points_partial {zip : Dict V → Option (Dict V)} (hz : ZipOK zip) (yes : V) (x : List V) (activity : Option (List V))
    (fields : Dict V) (kwargs : List (String × Arg V)) (hfn : (fields.map Prod.fst).Nodup) (hfl : ∀ p ∈ fields, p.2.length = x.length)
    (hkn : (kwargs.map Prod.fst).Nodup) (hkl : ArgsLen x.length kwargs) (hact : ∀ v, activity = some v → v.length = x.length) :
    ∃ db, pointInit zip yes x activity fields kwargs = some (some db) ∧ (db.map Prod.fst).Nodup ∧ (∀ p ∈ db, p.2.length = x.length) ∧
      ∀ key, dget db key = (kwArr kwargs key).or
        (if key = "_x" then some x else if key = "_activity" then some (activity.getD (x.map fun _ => yes)) else dget fields key) := by
  have g0 : Good x.length fields (dget fields) := ⟨hfn, hfl, fun _ => rfl⟩
  have g1 := g0.set (k := "_x") (v := x) rfl
  have g2 := g1.set (k := "_activity") (v := activity.getD (List.replicate x.length yes)) (by
    cases activity with
    | none => simp
    | some v => exact hact v rfl)
  have g3 := g2.args hkn hkl (keep := fun a => decide (a.length = x.length)) fun a ha => by simpa using ha
  obtain ⟨db, h1, h2, h3⟩ := akInit_good hz g3 hkn hkl ⟨"_x", by
    rw [if_neg (by decide), if_pos rfl]
    intro h
    rw [Option.or_eq_none_iff] at h
    simp at h⟩
  refine ⟨db, h1, h3.nodup, h3.len, fun key => ?_⟩
  have hmap : (x.map fun _ => yes) = List.replicate x.length yes := by simp
  rw [h3.get, hmap]
  by_cases hx : key = "_x"
  · subst hx
    cases kwArr kwargs "_x" <;> simp
  · by_cases ha : key = "_activity"
    · subst ha
      cases kwArr kwargs "_activity" <;> simp
    · cases kwArr kwargs key <;> simp [hx, ha, Ne.symm hx, Ne.symm ha]

example : pointInit (V := ℕ) some 1 [20, 21, 22] none [] [("k", .arr [3, 4, 5])] =
    some (some [("_x", [20, 21, 22]), ("_activity", [1, 1, 1]), ("k", [3, 4, 5])]) := by decide +kernel

/-- **C90** is false for arrays of other lengths: the constructors of `CellData` and `PointData` leave them out, as it is documented, but the
one of `AkWrapper` adds them again and hands them to `ak.zip`. -/
theorem C90_length_false (zip : Dict ℕ → Option (Dict ℕ)) :
    cellFields none (some (.arr [10, 11])) none none [] [("k", .arr [3, 4, 5])] = [("_nodes", [10, 11])] ∧
    cellInit zip none (some (.arr [10, 11])) none none none [] [("k", .arr [3, 4, 5])] =
      (zip [("_nodes", [10, 11]), ("k", [3, 4, 5])]).map some ∧
    pointInit zip 1 [10, 11] none [] [("k", .arr [3, 4, 5])] =
      (zip [("_x", [10, 11]), ("_activity", [1, 1]), ("k", [3, 4, 5])]).map some := by
  refine ⟨by decide +kernel, ?_, ?_⟩
  · have e : akFields (cellFields none (some (.arr [10, 11])) none none [] [("k", .arr [3, 4, 5])]) [("k", .arr [3, 4, 5])] =
        [("_nodes", [10, 11]), ("k", [3, 4, 5])] := by decide +kernel
    rw [cellInit, akInit]
    simp only [e]
    simp only [List.isEmpty_cons, Bool.false_eq_true, if_false]
    cases zip [("_nodes", [10, 11]), ("k", [3, 4, 5])] <;> rfl
  · have e : akFields (pointFields 1 [10, 11] none [] [("k", .arr [3, 4, 5])]) [("k", .arr [3, 4, 5])] =
        [("_x", [10, 11]), ("_activity", [1, 1]), ("k", [3, 4, 5])] := by decide +kernel
    rw [pointInit, akInit]
    simp only [e]
    simp only [List.isEmpty_cons, Bool.false_eq_true, if_false]

/-- **C90** is false for a dictionary that is used twice: the constructors write into the dictionary of the caller (cells: if it is empty), so that
the second database gets columns of the first one, here three points the data of two. -/
theorem C90_caller_false (zip : Dict ℕ → Option (Dict ℕ)) :
    pointInit zip 1 [20, 21, 22] none (pointCaller 1 [10, 11] none [] [("k", .arr [3, 4])]) [] =
      (zip [("_x", [20, 21, 22]), ("_activity", [1, 1, 1]), ("k", [3, 4])]).map some ∧
    cellCaller none (some (.arr [10, 11])) none none [] [("k", .arr [3, 4])] = [("_nodes", [10, 11]), ("k", [3, 4])] ∧
    cellCaller none (some (.arr [10, 11])) none none [("a", [1, 2])] [("k", .arr [3, 4])] = [("a", [1, 2])] := by
  refine ⟨?_, by decide +kernel, by decide +kernel⟩
  have e : akFields (pointFields 1 [20, 21, 22] none (pointCaller 1 [10, 11] none [] [("k", .arr [3, 4])]) []) [] =
      [("_x", [20, 21, 22]), ("_activity", [1, 1, 1]), ("k", [3, 4])] := by decide +kernel
  rw [pointInit, akInit]
  simp only [e]
  simp only [List.isEmpty_cons, Bool.false_eq_true, if_false]

/-- **C90** (factors): factors of the right number are stored under the given key. -/
theorem C90_factors (index : V → Option Nat) (db : Dict V) (factors : List V) (key : String) (h : factors.length = dlen db) :
    ∃ db', setFactors index db factors (some key) = some db' ∧ ∀ k, dget db' k = if key = k then some factors else dget db k := by
  refine ⟨dset db key factors, ?_, fun k => dget_dset _ _ _ _⟩
  rw [setFactors, Option.bind_some, if_neg (by simpa using h), dbSet, if_pos h]

/-- **C90** (factors): with a field `id`, factors of another number are those of the whole mesh, and every cell gets the one with its id. -/
theorem C90_factors_ids (index : V → Option Nat) (db : Dict V) (factors ids : List V) (is : List Nat) (key : String) (h1 : dget db "id" = some ids)
    (h2 : factors.length ≠ dlen db) (h3 : ids.length = dlen db) (h4 : ids.mapM index = some is) (h5 : ∀ i ∈ is, i < factors.length) :
    ∃ db' own, setFactors index db factors (some key) = some db' ∧ (∀ k, dget db' k = if key = k then some own else dget db k) ∧
      own.length = ids.length ∧ ∀ (e : Nat) (v : V), ids[e]? = some v → ∃ i, index v = some i ∧ own[e]? = factors[i]? := by
  obtain ⟨own, ho, hl, hget⟩ := mapM_exists (P := fun _ i v => factors[i]? = some v) (f := fun i => factors[i]?) (l := is) fun e i hi =>
    ⟨factors[i]'(h5 i (List.mem_of_getElem? hi)), List.getElem?_eq_getElem _, List.getElem?_eq_getElem _⟩
  have hlen : own.length = ids.length := hl.trans (mapM_length h4)
  have ho' : gather? factors is = some own := ho
  refine ⟨dset db key own, own, ?_, fun k => dget_dset _ _ _ _, hlen, fun e v hv => ?_⟩
  · rw [setFactors, Option.bind_some, if_pos h2, h1, Option.bind_some, h4, Option.bind_some, ho', Option.bind_some, dbSet, if_pos (by rw [hlen, h3])]
  · obtain ⟨i, hi, hie⟩ := mapM_get h4 hv
    have he : e < own.length := by rw [hlen]; exact (List.getElem?_eq_some_iff.1 hv).1
    exact ⟨i, hi, by rw [List.getElem?_eq_getElem he, hget e i own[e] hie (List.getElem?_eq_getElem he)]⟩

/-- **C90** is false for factors without a key, and for the factors of the whole mesh: the ids of the cells are stored as `_id`, but the
field `id` is asked for. -/
theorem C90_factors_false (index : V → Option Nat) (db : Dict V) (factors : List V) :
    setFactors index db factors none = none ∧
      ∀ key, dget db "id" = none → factors.length ≠ dlen db → setFactors index db factors (some key) = none := by
  refine ⟨rfl, fun key h1 h2 => ?_⟩
  rw [setFactors, Option.bind_some, if_pos h2, h1]
  rfl

/-! ## reading -/

theorem select_append (db : Dict V) (names : List String) (f : String) :
    selectFields db (names ++ [f]) = (selectFields db names).bind fun res => (dget db f).map fun v => dset res f v := by
  simp only [selectFields, List.foldl_append, List.foldl_cons, List.foldl_nil]

theorem select_some (db : Dict V) (names : List String) (h : ∀ f ∈ names, f ∈ db.map Prod.fst) :
    ∃ r, selectFields db names = some r ∧ (r.map Prod.fst).Nodup ∧ (∀ key, dget r key = if key ∈ names then dget db key else none) ∧
      (names.Nodup → r.map Prod.fst = names) := by
  induction names using List.reverseRecOn with
  | nil => exact ⟨[], rfl, by simp, fun key => by simp [dget], fun _ => rfl⟩
  | append_singleton names f ih =>
    obtain ⟨r, h1, h2, h3, h4⟩ := ih fun g hg => h g (List.mem_append_left _ hg)
    have hf : dget db f ≠ none := fun hn => dget_eq_none.1 hn (h f (by simp))
    obtain ⟨v, hv⟩ := Option.ne_none_iff_exists'.1 hf
    refine ⟨dset r f v, by rw [select_append, h1, hv]; rfl, nodup_dset h2 _ _, fun key => ?_, fun hn => ?_⟩
    · rw [dget_dset, h3]
      by_cases hk : f = key
      · subst hk
        simp [hv]
      · rw [if_neg hk]
        simp [Ne.symm hk]
    · have hn' := List.nodup_append.1 hn
      rw [keys_dset, h4 hn'.1, if_neg]
      intro hfn
      exact hn'.2.2 f hfn f (by simp) rfl

theorem select_none (db : Dict V) (names : List String) (h : ∃ f ∈ names, f ∉ db.map Prod.fst) : selectFields db names = none := by
  induction names using List.reverseRecOn with
  | nil => simp at h
  | append_singleton names f ih =>
    rw [select_append]
    obtain ⟨g, hg, hg'⟩ := h
    rcases List.mem_append.1 hg with hg | hg
    · rw [ih ⟨g, hg, hg'⟩]
      rfl
    · rw [List.mem_singleton] at hg
      subst hg
      rw [dget_eq_none.2 hg']
      cases selectFields db names <;> rfl

/-- **C90** (`to_dict`): the columns that are asked for by a list and by positional arguments, all of them if nothing is asked for; an unknown name
is an error. -/
theorem C90_dict (db : Dict V) (args : List String) (fields : Option (List String)) (names : List String)
    (hnames : names = if fields.getD [] ++ args = [] then db.map Prod.fst else fields.getD [] ++ args) :
    ((∀ f ∈ names, f ∈ db.map Prod.fst) → ∃ r, toDict db args (fields.map .list) = some r ∧ (r.map Prod.fst).Nodup ∧
      ∀ key, dget r key = if key ∈ names then dget db key else none) ∧
    ((∃ f ∈ names, f ∉ db.map Prod.fst) → toDict db args (fields.map .list) = none) := by
  have e : toDict db args (fields.map .list) = selectFields db names := by
    cases fields with
    | none => simp [toDict, hnames, List.isEmpty_iff]
    | some l => simp only [toDict, hnames, Option.map_some, List.isEmpty_iff, Option.getD_some]
  rw [e]
  constructor
  · intro h
    obtain ⟨r, h1, h2, h3, -⟩ := select_some db names h
    exact ⟨r, h1, h2, h3⟩
  · exact select_none db names

theorem mem_of_dget {d : Dict V} {k : String} {v : List V} (h : dget d k = some v) : (k, v) ∈ d := by
  unfold dget at h
  obtain ⟨p, hp, rfl⟩ := Option.map_eq_some_iff.1 h
  have h2 := List.find?_some hp
  simp only [decide_eq_true_eq] at h2
  rw [← h2]
  exact List.mem_of_find?_eq_some hp

theorem dget_of_mem {d : Dict V} (hn : (d.map Prod.fst).Nodup) {p : String × List V} (h : p ∈ d) : dget d p.1 = some p.2 := by
  induction d with
  | nil => simp at h
  | cons q d ih =>
    rw [List.map_cons, List.nodup_cons] at hn
    rw [dget_cons]
    rcases List.mem_cons.1 h with rfl | h
    · rw [if_pos rfl]
    · rw [if_neg, ih hn.2 h]
      intro e
      exact hn.1 (e ▸ List.mem_map.2 ⟨p, h, rfl⟩)

theorem rowsOf_eq {r : Dict V} {N : Nat} (hn : (r.map Prod.fst).Nodup) (hl : ∀ p ∈ r, p.2.length = N) (hne : r ≠ []) :
    rowsOf r = recordsOf r N (r.map Prod.fst) := by
  unfold rowsOf recordsOf
  rw [dlen_eq hl hne]
  apply List.map_congr_left
  intro i _
  rw [List.filterMap_map]
  apply List.filterMap_congr
  intro p hp
  simp only [Function.comp, dget_of_mem hn hp, Option.bind_some]

theorem listOfFields_select {zip : Dict V → Option (Dict V)} (hz : ZipOK zip) {db : Dict V} {N : Nat}
    (hl : ∀ p ∈ db, p.2.length = N) {names : List String} (h : ∀ f ∈ names, f ∈ db.map Prod.fst) (hn : names.Nodup) (hne : names ≠ []) :
    (selectFields db names).bind (listOfFields zip) = some (recordsOf db N names) := by
  obtain ⟨r, h1, h2, h3, h4⟩ := select_some db names h
  have h4 := h4 hn
  have hrl : ∀ p ∈ r, p.2.length = N := by
    intro p hp
    have := dget_of_mem h2 hp
    rw [h3, if_pos (h4 ▸ List.mem_map.2 ⟨p, hp, rfl⟩)] at this
    exact hl _ (mem_of_dget this)
  have hrne : r ≠ [] := by
    rintro rfl
    exact hne h4.symm
  rw [h1, Option.bind_some, listOfFields, akInit]
  simp only [akFields, addArgs, List.foldl_nil, List.isEmpty_iff, hrne, if_false]
  rw [hz r N h2 hrl]
  simp only [Option.map_some, Option.bind_some]
  rw [rowsOf_eq h2 hrl hrne, h4]
  unfold recordsOf
  congr 1
  apply List.map_congr_left
  intro i _
  apply List.filterMap_congr
  intro f hf
  rw [h3, if_pos hf]

/-- **C90** (`to_list`): one record per row with the names that are asked for, in their order; all of them if nothing is asked for. -/
theorem C90_list_partial {zip : Dict V → Option (Dict V)} (hz : ZipOK zip) (db : Dict V) (N : Nat) (hdn : (db.map Prod.fst).Nodup)
    (hl : ∀ p ∈ db, p.2.length = N) (hdb : db ≠ []) (args l : List String) :
    toList zip db [] none = some (recordsOf db N (db.map Prod.fst)) ∧
    ((l ++ args).Nodup → l ++ args ≠ [] → (∀ f ∈ l ++ args, f ∈ db.map Prod.fst) →
      toList zip db args (some (.list l)) = some (recordsOf db N (l ++ args))) ∧
    (args.Nodup → args ≠ [] → (∀ f ∈ args, f ∈ db.map Prod.fst) → toList zip db args none = some (recordsOf db N args)) ∧
    ((∃ f ∈ l ++ args, f ∉ db.map Prod.fst) → toList zip db args (some (.list l)) = none) := by
  refine ⟨?_, fun h1 h2 h3 => listOfFields_select hz hl h3 h1 h2, fun h1 h2 h3 => ?_, fun h => ?_⟩
  · rw [← rowsOf_eq hdn hl hdb]
    rfl
  · rw [toList, if_neg (by simpa using h2)]
    exact listOfFields_select hz hl h3 h1 h2
  · rw [toList, select_none db _ h]
    rfl

example : toList (V := ℕ) some [("a", [1, 2]), ("b", [3, 4]), ("c", [5, 6])] ["a"] (some (.list ["c"])) =
    some [[("c", 5), ("a", 1)], [("c", 6), ("a", 2)]] := by decide +kernel

/-- **C90** is false for iterables other than lists, which have no `extend`, and for `to_list` of an empty list of names, for which `to_dict`
returns all columns. -/
theorem C90_iter_false (zip : Dict V → Option (Dict V)) (db : Dict V) (args l : List String) :
    toDict db args (some (.iter l)) = none ∧ toList zip db args (some (.iter l)) = none ∧
      toList zip db [] (some (.list [])) = none ∧ toDict db [] (some (.list [])) = toDict db [] none := ⟨rfl, rfl, rfl, rfl⟩

/-! ## meshes -/

theorem concatLists_eq {α : Type} {l : List (List α)} (h : l ≠ []) : concatLists l = some l.flatten := by
  have gen : ∀ (l : List (List α)) (a : List α), l.foldl (· ++ ·) a = a ++ l.flatten := by
    intro l
    induction l with
    | nil => simp
    | cons b l ih => intro a; rw [List.foldl_cons, ih, List.flatten_cons, List.append_assoc]
  cases l with
  | nil => exact absurd rfl h
  | cons a l => rw [concatLists, gen, List.flatten_cons]

/-- The databases of a kind in the block `p` and beneath it, in order. -/
def databasesUnder (get : DBlock V → Option (Dict V)) (m : List (DBlock V)) (p : List Nat) : List (Dict V) :=
  (m.filter fun b => decide (p <:+ b.path)).filterMap get

/-- A well-formed database: at least one column, different names, equal lengths. -/
structure DbOK (db : Dict V) (N : Nat) : Prop where
  ne : db ≠ []
  nodup : (db.map Prod.fst).Nodup
  len : ∀ p ∈ db, p.2.length = N

theorem listsOf_eq {zip : Dict V → Option (Dict V)} (hz : ZipOK zip) {dbs : List (Dict V)} (hne : dbs ≠ []) {size : Dict V → Nat}
    (hok : ∀ db ∈ dbs, DbOK db (size db)) {names : Option (List String)}
    (hn : ∀ l, names = some l → l.Nodup ∧ l ≠ [] ∧ ∀ db ∈ dbs, ∀ f ∈ l, f ∈ db.map Prod.fst) :
    listsOf zip dbs names = some (dbs.flatMap fun db => recordsOf db (size db) (names.getD (db.map Prod.fst))) := by
  unfold listsOf
  have e := mapM_some (l := dbs) (f := listOfBlock zip names)
    (g := fun db => recordsOf db (size db) (names.getD (db.map Prod.fst))) (by
      intro db hdb
      have ok := hok db hdb
      cases names with
      | none => rw [Option.getD_none, ← rowsOf_eq ok.nodup ok.len ok.ne]; rfl
      | some l =>
        obtain ⟨h1, h2, h3⟩ := hn l rfl
        exact listOfFields_select hz ok.len (h3 db hdb) h1 h2)
  rw [e, Option.bind_some, concatLists_eq (by simpa using hne), List.flatMap]

theorem dblocks_true (m : List (DBlock V)) (p : List Nat) : dblocks true m p = m.filter fun b => decide (p <:+ b.path) := by
  simp [dblocks]

/-- **C91** (lists): the records of the points and of the cells of all blocks of a mesh, block after block. -/
theorem C91_lists_partial {zip : Dict V → Option (Dict V)} (hz : ZipOK zip) (m : List (DBlock V)) (p : List Nat) (size : Dict V → Nat)
    (pnames cnames : Option (List String))
    (hp : databasesUnder DBlock.pd m p ≠ []) (hc : databasesUnder DBlock.cd m p ≠ [])
    (hpo : ∀ db ∈ databasesUnder DBlock.pd m p, DbOK db (size db)) (hco : ∀ db ∈ databasesUnder DBlock.cd m p, DbOK db (size db))
    (hpn : ∀ l, pnames = some l → l.Nodup ∧ l ≠ [] ∧ ∀ db ∈ databasesUnder DBlock.pd m p, ∀ f ∈ l, f ∈ db.map Prod.fst)
    (hcn : ∀ l, cnames = some l → l.Nodup ∧ l ≠ [] ∧ ∀ db ∈ databasesUnder DBlock.cd m p, ∀ f ∈ l, f ∈ db.map Prod.fst) :
    toLists zip m p pnames cnames = some
      ((databasesUnder DBlock.pd m p).flatMap fun db => recordsOf db (size db) (pnames.getD (db.map Prod.fst)),
       (databasesUnder DBlock.cd m p).flatMap fun db => recordsOf db (size db) (cnames.getD (db.map Prod.fst))) := by
  unfold databasesUnder at *
  rw [toLists, dblocks_true, listsOf_eq hz hp hpo hpn, Option.bind_some, listsOf_eq hz hc hco hcn]
  rfl

/-- Two blocks of cells over three points. -/
def exampleMesh : List (DBlock ℕ) :=
  [⟨[], some [("_x", [10, 11, 12]), ("a", [1, 2, 3])], none⟩, ⟨[0], none, some [("_nodes", [5, 6])]⟩,
   ⟨[1], none, some [("_nodes", [7]), ("b", [8])]⟩]

example : toLists some exampleMesh [] (some ["a"]) (some ["_nodes"]) =
    some ([[("a", 1)], [("a", 2)], [("a", 3)]], [[("_nodes", 5)], [("_nodes", 6)], [("_nodes", 7)]]) := by decide +kernel

/-- **C91** an unknown name in one of the blocks is an error. -/
theorem C91_unknown (zip : Dict V → Option (Dict V)) (m : List (DBlock V)) (p : List Nat) (l : List String) (cnames : Option (List String))
    (db : Dict V) (hdb : db ∈ databasesUnder DBlock.pd m p) (h : ∃ f ∈ l, f ∉ db.map Prod.fst) : toLists zip m p (some l) cnames = none := by
  unfold databasesUnder at hdb
  rw [toLists, dblocks_true, listsOf]
  have : (((m.filter fun b => decide (p <:+ b.path)).filterMap DBlock.pd).mapM (listOfBlock zip (some l))) = none :=
    mapM_none hdb (by rw [listOfBlock, select_none db l h]; rfl)
  simp only [this]
  rfl

/-- **C91** is false for meshes without cells (or without points): there is nothing to reduce. -/
theorem C91_nothing_false (zip : Dict V → Option (Dict V)) (m : List (DBlock V)) (p : List Nat) (pnames cnames : Option (List String))
    (h : databasesUnder DBlock.pd m p = [] ∨ databasesUnder DBlock.cd m p = []) : toLists zip m p pnames cnames = none := by
  unfold databasesUnder at h
  rw [toLists, dblocks_true]
  rcases h with h | h
  · rw [h]; rfl
  · rw [h]
    generalize listsOf zip _ pnames = r
    cases r <;> rfl

/-- What is assumed of `np.unique`: the same names. -/
def UniqOK (uniq : List String → List String) : Prop := ∀ l s, s ∈ uniq l ↔ s ∈ l

theorem fieldNames_spec {uniq : List String → List String} (hu : UniqOK uniq) {m : List (DBlock V)} {p : List Nat}
    {get : DBlock V → Option (Dict V)} {n : Nat}
    (hn : ∀ b ∈ m, p <:+ b.path → b.path ≠ p → ∀ db, get b = some db → db.length = n) :
    ∃ r, fieldNames uniq ((dblocks false m p).filterMap get) = some r ∧
      ∀ s, s ∈ r ↔ ∃ b ∈ m, p <:+ b.path ∧ b.path ≠ p ∧ ∃ db, get b = some db ∧ s ∈ db.map Prod.fst := by
  have hm : ∀ db, db ∈ (dblocks false m p).filterMap get ↔ ∃ b ∈ m, p <:+ b.path ∧ b.path ≠ p ∧ get b = some db := by
    intro db
    simp [dblocks, List.mem_filterMap, and_assoc]
  refine ⟨_, if_pos ?_, fun s => ?_⟩
  · rw [List.all_eq_true]
    have hall : ∀ db ∈ (dblocks false m p).filterMap get, db.length = n := by
      intro db hdb
      obtain ⟨b, h1, h2, h3, h4⟩ := (hm db).1 hdb
      exact hn b h1 h2 h3 db h4
    intro db hdb
    simp only [decide_eq_true_eq]
    generalize (dblocks false m p).filterMap get = l at hall hdb
    cases l with
    | nil => simp at hdb
    | cons a l => rw [hall db hdb, List.headD_cons, hall a List.mem_cons_self]
  · rw [hu, List.mem_flatMap]
    constructor
    · rintro ⟨db, h1, h2⟩
      obtain ⟨b, h3, h4, h5, h6⟩ := (hm db).1 h1
      exact ⟨b, h3, h4, h5, db, h6, h2⟩
    · rintro ⟨b, h3, h4, h5, db, h6, h2⟩
      exact ⟨db, (hm db).2 ⟨b, h3, h4, h5, h6⟩, h2⟩

/-- **C91** (`point_fields`, `cell_fields`): the names of the columns of the databases strictly beneath the block, if they all have the same
number of columns. -/
theorem C91_fields_partial {uniq : List String → List String} (hu : UniqOK uniq) (m : List (DBlock V)) (p : List Nat) (n : Nat) :
    ((∀ b ∈ m, p <:+ b.path → b.path ≠ p → ∀ db, b.pd = some db → db.length = n) → ∃ r, pointFieldNames uniq m p = some r ∧
      ∀ s, s ∈ r ↔ ∃ b ∈ m, p <:+ b.path ∧ b.path ≠ p ∧ ∃ db, b.pd = some db ∧ s ∈ db.map Prod.fst) ∧
    ((∀ b ∈ m, p <:+ b.path → b.path ≠ p → ∀ db, b.cd = some db → db.length = n) → ∃ r, cellFieldNames uniq m p = some r ∧
      ∀ s, s ∈ r ↔ ∃ b ∈ m, p <:+ b.path ∧ b.path ≠ p ∧ ∃ db, b.cd = some db ∧ s ∈ db.map Prod.fst) :=
  ⟨fieldNames_spec hu, fieldNames_spec hu⟩

example : cellFieldNames (fun l => l) [⟨[], none, none⟩, ⟨[0], none, some [("_nodes", [5, 6])]⟩, ⟨[1], none, some [("b", [8])]⟩] [] =
    some ["_nodes", "b"] := by decide +kernel

/-- **C91** is false for the fields of the block itself: the points of a mesh usually belong to its root, and none of their fields is
returned. It is false for blocks with different numbers of fields: there is no array of names. -/
theorem C91_fields_false {uniq : List String → List String} (hu : UniqOK uniq) :
    pointFieldNames uniq exampleMesh [] = some [] ∧ cellFieldNames uniq exampleMesh [] = none := by
  have e1 : (dblocks false exampleMesh []).filterMap DBlock.pd = [] := by decide +kernel
  have e2 : (dblocks false exampleMesh []).filterMap DBlock.cd = [[("_nodes", [5, 6])], [("_nodes", [7]), ("b", [8])]] := by decide +kernel
  refine ⟨?_, ?_⟩
  · rw [pointFieldNames, e1, fieldNames, if_pos (by rfl)]
    congr 1
    apply List.eq_nil_iff_forall_not_mem.2
    intro s hs
    simpa using (hu _ _).1 hs
  · rw [cellFieldNames, e2, fieldNames, if_neg (by decide)]

end

end PM
