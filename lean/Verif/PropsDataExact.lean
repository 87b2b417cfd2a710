import Verif.PropsPv
import Verif.PropsDatabase

/-!
Exact accounts of what is read and of the names of fields: what comes out also in the cases in which claims C91, C92 and C104 fail.

* `from_meshio` and `from_pv` with several groups of cells of one type (C92);
* `point_fields` and `cell_fields` of blocks with different numbers of columns (C91);
* which blocks show values and which ones count as blocks with data (C104).
-/

namespace PM

section
variable {κ β : Type} [DecidableEq κ]

theorem putKey_keys (d : List (κ × β)) (k : κ) (v : β) :
    (putKey d k v).map Prod.fst = if k ∈ d.map Prod.fst then d.map Prod.fst else d.map Prod.fst ++ [k] := by
  by_cases h : k ∈ d.map Prod.fst
  · rw [if_pos h]
    unfold putKey
    rw [if_pos (by simpa using h), List.map_map]
    apply List.map_congr_left
    intro p _
    by_cases hp : p.1 = k <;> simp [hp]
  · rw [if_neg h, putKey_new h]
    simp

theorem getKey_putKey_ne (d : List (κ × β)) {k l : κ} (v : β) (h : l ≠ k) : getKey (putKey d k v) l = getKey d l := by
  by_cases hk : k ∈ d.map Prod.fst
  · unfold putKey
    rw [if_pos (by simpa using hk)]
    clear hk
    induction d with
    | nil => rfl
    | cons p d ih =>
      rw [List.map_cons, getKey_cons, getKey_cons, ih]
      by_cases hp : p.1 = k
      · simp [hp, h.symm]
      · simp [hp]
  · rw [putKey_new hk]
    clear hk
    induction d with
    | nil => simp [getKey, h.symm]
    | cons p d ih => rw [List.cons_append, getKey_cons, getKey_cons, ih]

/-- What a reader makes of groups of cells: one block per known type in the order of the first groups of the types, with the cells of the
last group of its type. -/
structure BlocksOf (known : κ → Option β) (cells : List (κ × Topo)) (blocks : List (κ × β × Topo)) : Prop where
  keys : blocks.map Prod.fst = ((cells.map Prod.fst).filter fun s => (known s).isSome).eraseDups
  value : ∀ s c t, getKey blocks s = some (c, t) ↔
    known s = some c ∧ ∃ pre post, cells = pre ++ (s, t) :: post ∧ ∀ u ∈ post, u.1 ≠ s

theorem eraseDups_snoc (l : List κ) (a : κ) : (l ++ [a]).eraseDups = if a ∈ l.eraseDups then l.eraseDups else l.eraseDups ++ [a] := by
  rw [List.eraseDups_append]
  by_cases h : a ∈ l <;> simp [List.removeAll, h, List.eraseDups_cons, List.mem_eraseDups]

theorem BlocksOf.nil (known : κ → Option β) : BlocksOf known [] ([] : List (κ × β × Topo)) :=
  ⟨rfl, fun s c t => by simp [getKey]⟩

theorem BlocksOf.snoc {known : κ → Option β} {cells : List (κ × Topo)} {blocks : List (κ × β × Topo)} (h : BlocksOf known cells blocks)
    {g : κ × Topo} {k : β} (hk : known g.1 = some k) : BlocksOf known (cells ++ [g]) (putKey blocks g.1 (k, g.2)) := by
  obtain ⟨h1, h2⟩ := h
  refine ⟨?_, fun s c t => ?_⟩
  · rw [putKey_keys, h1, List.map_append, List.filter_append, List.map_singleton, List.filter_singleton, hk, Option.isSome_some, cond_true,
      eraseDups_snoc]
  · by_cases hs : s = g.1
    · subst hs
      rw [getKey_putKey]
      constructor
      · intro e
        obtain ⟨rfl, rfl⟩ := Prod.mk.inj (Option.some.inj e)
        exact ⟨hk, cells, [], rfl, by simp⟩
      · rintro ⟨e, pre, post, e1, e2⟩
        rw [hk] at e
        obtain rfl := Option.some.inj e
        rcases List.eq_nil_or_concat post with rfl | ⟨q, x, rfl⟩
        · obtain ⟨_, e3⟩ := List.append_inj' e1 rfl
          rw [List.singleton_inj.1 e3]
        · exfalso
          rw [List.concat_eq_append, ← List.cons_append, ← List.append_assoc] at e1
          obtain ⟨_, e3⟩ := List.append_inj' e1 rfl
          exact e2 x (by simp) (by rw [List.singleton_inj.1 e3])
    · rw [getKey_putKey_ne _ _ hs, h2]
      refine and_congr_right fun _ => ⟨?_, ?_⟩
      · rintro ⟨pre, post, rfl, e2⟩
        refine ⟨pre, post ++ [g], by simp, fun u hu => ?_⟩
        rcases List.mem_append.1 hu with hu | hu
        · exact e2 u hu
        · rw [List.mem_singleton.1 hu]
          exact fun e => hs e.symm
      · rintro ⟨pre, post, e1, e2⟩
        rcases List.eq_nil_or_concat post with rfl | ⟨q, x, rfl⟩
        · obtain ⟨_, e3⟩ := List.append_inj' e1 rfl
          exact absurd (by rw [List.singleton_inj.1 e3]) hs
        · rw [List.concat_eq_append, ← List.cons_append, ← List.append_assoc] at e1
          obtain ⟨e3, _⟩ := List.append_inj' e1 rfl
          exact ⟨pre, q, e3, fun u hu => e2 u (by simp [hu])⟩

theorem BlocksOf.skip {known : κ → Option β} {cells : List (κ × Topo)} {blocks : List (κ × β × Topo)} (h : BlocksOf known cells blocks)
    {g : κ × Topo} (hk : known g.1 = none) : BlocksOf known (cells ++ [g]) blocks := by
  obtain ⟨h1, h2⟩ := h
  refine ⟨?_, fun s c t => ?_⟩
  · rw [h1, List.map_append, List.filter_append, List.map_singleton, List.filter_singleton, hk, Option.isSome_none, cond_false, List.append_nil]
  · rw [h2]
    refine and_congr_right fun hc => ⟨?_, ?_⟩
    · rintro ⟨pre, post, rfl, e2⟩
      refine ⟨pre, post ++ [g], by simp, fun u hu => ?_⟩
      rcases List.mem_append.1 hu with hu | hu
      · exact e2 u hu
      · rw [List.mem_singleton.1 hu]
        intro e
        rw [e, hc] at hk
        cases hk
    · rintro ⟨pre, post, e1, e2⟩
      rcases List.eq_nil_or_concat post with rfl | ⟨q, x, rfl⟩
      · obtain ⟨_, e3⟩ := List.append_inj' e1 rfl
        rw [List.singleton_inj.1 e3, hc] at hk
        cases hk
      · rw [List.concat_eq_append, ← List.cons_append, ← List.append_assoc] at e1
        obtain ⟨e3, _⟩ := List.append_inj' e1 rfl
        exact ⟨pre, q, e3, fun u hu => e2 u (by simp [hu])⟩

end

/-- **C92** (meshio, any groups): one block per known type, in the order of the first groups, with the cells of the last group of the
type only. -/
theorem C92_meshio_exact (table : List (String × CellClass)) (cells : List (String × Topo)) :
    BlocksOf (getKey table) cells (fromMeshio table cells) := by
  unfold fromMeshio
  induction cells using List.reverseRecOn with
  | nil => exact BlocksOf.nil _
  | append_singleton cells g ih =>
    rw [List.foldl_append, List.foldl_cons, List.foldl_nil]
    cases hk : getKey table g.1 with
    | none => exact ih.skip hk
    | some k => exact ih.snoc hk

/-- **C92** (pyvista, any groups): there is a mesh iff all types are known; then one block per type, in the order of the first groups, with
the cells of the last group of the type. -/
theorem C92_pv_exact (table : List (Nat × CellClass)) (cells : List (Nat × Topo)) :
    ((fromPv table cells).isSome ↔ ∀ c ∈ cells, (getKey table c.1).isSome) ∧
      ∀ r, fromPv table cells = some r → BlocksOf (getKey table) cells r := by
  unfold fromPv
  induction cells using List.reverseRecOn with
  | nil => exact ⟨by simp, fun r hr => by obtain rfl := Option.some.inj hr; exact BlocksOf.nil _⟩
  | append_singleton cells g ih =>
    obtain ⟨ih1, ih2⟩ := ih
    rw [List.foldl_append, List.foldl_cons, List.foldl_nil]
    refine ⟨?_, fun r hr => ?_⟩
    · rw [List.forall_mem_append, ← ih1]
      cases cells.foldl (fun acc c => acc.bind fun d => (getKey table c.1).map fun k => putKey d c.1 (k, c.2)) (some []) <;> simp
    · obtain ⟨d, h1, h2⟩ := Option.bind_eq_some_iff.1 hr
      obtain ⟨k, h3, rfl⟩ := Option.map_eq_some_iff.1 h2
      exact (ih2 d h1).snoc h3

/-- A case: triangles, unknown cells, a line and again triangles. -/
example : fromMeshio (meshioTable meshioName cellClasses)
    [("triangle", [[0, 1, 2]]), ("vertex", [[0]]), ("line", [[0, 1]]), ("triangle", [[1, 2, 3]])] =
    [("triangle", ⟨"T3", some 5, 3, 2⟩, [[1, 2, 3]]), ("line", ⟨"L2", some 3, 2, 1⟩, [[0, 1]])] := by decide +kernel

section
variable {V : Type}

/-- `db` is the database of a block strictly beneath block `p`. -/
def Beneath (m : List (DBlock V)) (p : List Nat) (get : DBlock V → Option (Dict V)) (db : Dict V) : Prop :=
  ∃ b ∈ m, p <:+ b.path ∧ b.path ≠ p ∧ get b = some db

theorem fieldNames_exact {uniq : List String → List String} (hu : UniqOK uniq) (m : List (DBlock V)) (p : List Nat)
    (get : DBlock V → Option (Dict V)) :
    ((fieldNames uniq ((dblocks false m p).filterMap get)).isSome ↔
      ∀ a b, Beneath m p get a → Beneath m p get b → a.length = b.length) ∧
    ∀ r, fieldNames uniq ((dblocks false m p).filterMap get) = some r →
      ∀ s, s ∈ r ↔ ∃ db, Beneath m p get db ∧ s ∈ db.map Prod.fst := by
  have hm : ∀ db, db ∈ (dblocks false m p).filterMap get ↔ Beneath m p get db := by
    intro db
    simp [dblocks, List.mem_filterMap, and_assoc, Beneath]
  generalize (dblocks false m p).filterMap get = l at hm
  unfold fieldNames
  refine ⟨?_, fun r hr s => ?_⟩
  · rw [Option.isSome_ite, List.all_eq_true]
    simp only [decide_eq_true_eq]
    constructor
    · intro h a b ha hb
      rw [h a ((hm a).2 ha), h b ((hm b).2 hb)]
    · intro h db hdb
      cases l with
      | nil => simp at hdb
      | cons a l => exact h db a ((hm db).1 hdb) ((hm a).1 List.mem_cons_self)
  · obtain ⟨_, e⟩ := Option.ite_none_right_eq_some.1 hr
    obtain rfl := Option.some.inj e
    rw [hu, List.mem_flatMap]
    exact exists_congr fun db => and_congr_left fun _ => hm db

/-- **C91** (`point_fields`, `cell_fields`, any mesh): there is an answer iff all databases strictly beneath the block have the same number
of columns, and then it has exactly the names of their columns. -/
theorem C91_fields_exact {uniq : List String → List String} (hu : UniqOK uniq) (m : List (DBlock V)) (p : List Nat) :
    (((pointFieldNames uniq m p).isSome ↔ ∀ a b, Beneath m p DBlock.pd a → Beneath m p DBlock.pd b → a.length = b.length) ∧
      ∀ r, pointFieldNames uniq m p = some r → ∀ s, s ∈ r ↔ ∃ db, Beneath m p DBlock.pd db ∧ s ∈ db.map Prod.fst) ∧
    (((cellFieldNames uniq m p).isSome ↔ ∀ a b, Beneath m p DBlock.cd a → Beneath m p DBlock.cd b → a.length = b.length) ∧
      ∀ r, cellFieldNames uniq m p = some r → ∀ s, s ∈ r ↔ ∃ db, Beneath m p DBlock.cd db ∧ s ∈ db.map Prod.fst) :=
  ⟨fieldNames_exact hu m p _, fieldNames_exact hu m p _⟩

end

section
variable {P D : Type}

/-- **C104** (flags, any mesh): values are shown for arrays, for fields of the closest points above and for fields of the cells. A block counts as
one with data also if any other points above have the field: then it shows no values and nevertheless loses its colour. -/
theorem C104_flag_exact (cls : MBlock P D → CellClass) (nameOf : Nat → String) {m : List (MBlock P D)} (hm : MeshTree m)
    {b : MBlock P D} {c : CData D} {s : MBlock P D} {q : PData P D} (hs : ClosestPts m b.path s q) {d : PvScalars D}
    {o : PvItem P D} (ho : pvBlock cls nameOf false d m b c = some o) :
    ((o.atPoints.isSome ∨ o.atCells.isSome) ↔ (∃ a, d = .array a) ∨ ∃ f, d = .field f ∧ ((q.fields f).isSome ∨ (c.fields f).isSome)) ∧
    (hasPlotScalars m d b c = true ↔ (o.atPoints.isSome ∨ o.atCells.isSome) ∨
      ∃ f, d = .field f ∧ ∃ b' ∈ m, ∃ q' v, b'.path <:+ b.path ∧ b'.pts = some q' ∧ q'.fields f = some v) := by
  have hatt : ∀ {g : VtkGrid P} {n : String} {e : List D}, pvAttach g n e = some o → (o.atPoints.isSome ∨ o.atCells.isSome) := by
    intro g n e h
    unfold pvAttach at h
    split at h
    · obtain rfl := Option.some.inj h; exact Or.inl rfl
    · split at h
      · obtain rfl := Option.some.inj h; exact Or.inr rfl
      · cases h
  have first : (o.atPoints.isSome ∨ o.atCells.isSome) ↔
      (∃ a, d = .array a) ∨ ∃ f, d = .field f ∧ ((q.fields f).isSome ∨ (c.fields f).isSome) := by
    unfold pvBlock at ho
    simp only [Option.bind_eq_some_iff, Bool.false_eq_true, if_false] at ho
    obtain ⟨⟨x, t, e⟩, h1, g, -, h3⟩ := ho
    simp only [detachBlock, sourcePath_eq hm.nodup hs, ptsAt_of_mem hm.nodup hs.mem, hs.pts, Option.bind_some,
      Option.bind_eq_some_iff] at h1
    obtain ⟨topo, -, h1⟩ := h1
    have he : (o.atPoints.isSome ∨ o.atCells.isSome) ↔ e.isSome := by
      cases e with
      | none => obtain rfl := Option.some.inj h3; simp
      | some e => exact ⟨fun _ => rfl, fun _ => hatt h3⟩
    rw [he]
    cases d with
    | nothing =>
      obtain ⟨r, -, h⟩ := Option.map_eq_some_iff.1 h1
      simp only [Prod.mk.injEq] at h
      simp [← h.2.2]
    | array a =>
      simp only [PvScalars.arg] at h1
      split at h1
      · obtain ⟨r, -, h⟩ := Option.map_eq_some_iff.1 h1
        simp only [Prod.mk.injEq] at h
        simp [← h.2.2]
      · cases h1
    | field f =>
      simp only [PvScalars.arg] at h1
      cases hq : q.fields f with
      | some v =>
        rw [hq] at h1
        obtain ⟨r, -, h⟩ := Option.map_eq_some_iff.1 h1
        simp only [Prod.mk.injEq] at h
        simp [← h.2.2, hq]
      | none =>
        rw [hq] at h1
        obtain ⟨r, -, h⟩ := Option.map_eq_some_iff.1 h1
        simp only [Prod.mk.injEq] at h
        simp [← h.2.2, hq]
  refine ⟨first, ?_⟩
  rw [first]
  cases d with
  | nothing => simp [hasPlotScalars]
  | array a => simp [hasPlotScalars]
  | field f =>
    simp only [hasPlotScalars, Bool.or_eq_true, hasSourceOf_iff hm.nodup]
    constructor
    · rintro (h | h)
      · exact Or.inr ⟨f, rfl, h⟩
      · exact Or.inl (Or.inr ⟨f, rfl, Or.inr h⟩)
    · rintro ((⟨a, h⟩ | ⟨f', h, h' | h'⟩) | ⟨f', h, h'⟩)
      · cases h
      · cases h
        obtain ⟨v, hv⟩ := Option.isSome_iff_exists.1 h'
        exact Or.inl ⟨s, hs.mem, q, v, hs.above, hs.pts, hv⟩
      · cases h; exact Or.inr h'
      · cases h; exact Or.inl h'

/-- A case: the points of the root have the field, those of the block do not. -/
example : hasPlotScalars pvDeep (.field 0) ⟨[0], Fr.ambient, none, none⟩ ⟨[[0, 1]], [0], fun _ => none⟩ = true := by decide +kernel

end

end PM
