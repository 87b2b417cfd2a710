import Verif.Exchange
import Verif.PropsWalk

/-!
# C92: meshes of other libraries
-/

namespace PM

/-! ## specification -/

/-- How VTK reads `n` cells from an array: a number of nodes, then that many nodes. -/
def vtkRead : Nat → List Nat → Option (Topo × List Nat)
  | 0, l => some ([], l)
  | _ + 1, [] => none
  | n + 1, k :: l => if k ≤ l.length then (vtkRead n (l.drop k)).map fun r => (l.take k :: r.1, r.2) else none

/-- Number of nodes of the types of cells of VTK (vtkCellType.h). -/
def vtkNodes : Nat → Option Nat
  | 3 => some 2
  | 5 => some 3
  | 9 => some 4
  | 10 => some 4
  | 12 => some 8
  | 13 => some 6
  | 22 => some 6
  | 24 => some 10
  | 28 => some 9
  | 29 => some 27
  | 32 => some 18
  | _ => none

/-! ## arrays of cells -/

theorem vtkRead_array (w : Nat) (topo : Topo) (h : ∀ row ∈ topo, row.length = w) (rest : List Nat) :
    vtkRead topo.length (vtkArray w topo ++ rest) = some (topo, rest) := by
  induction topo with
  | nil => rfl
  | cons row topo ih =>
    have hw := h row List.mem_cons_self
    have e : vtkArray w (row :: topo) ++ rest = w :: (row ++ (vtkArray w topo ++ rest)) := by
      simp [vtkArray]
    rw [e, List.length_cons, vtkRead, if_pos (by rw [List.length_append]; omega), ← hw, List.drop_left, List.take_left, hw,
      ih fun r hr => h r (List.mem_cons_of_mem _ hr)]
    rfl

/-- **C92** (cells for VTK): VTK reads the cells of the topology, and nothing is left over. -/
theorem C92_array {P : Type} (x : List P) (topo : Topo) (w : Nat) (type : Option Nat) (h : ∀ row ∈ topo, row.length = w) :
    ∃ g, vtkGrid x topo w type = some g ∧ g.points = x ∧ g.type = type ∧ vtkRead g.ncells g.cells = some (topo, []) := by
  refine ⟨_, if_pos (by simpa using h), rfl, rfl, ?_⟩
  have := vtkRead_array w topo h []
  rwa [List.append_nil] at this

example : vtkArray 3 [[0, 1, 2], [2, 1, 5]] = [3, 0, 1, 2, 3, 2, 1, 5] := by decide +kernel

/-- **C92** (blocks for VTK): one grid per block of cells, in order, with the type of the class; for blocks without other cells beneath them, the
cells VTK reads are at the places of the cells of the block. -/
theorem C92_vtk_partial {P D : Type} (cls : MBlock P D → CellClass) {m : List (MBlock P D)} (hm : MeshTree m) (p : List Nat)
    (src : MBlock P D → MBlock P D) (pts : MBlock P D → PData P D)
    (hflat : ∀ b ∈ m, b.cells.isSome → ∀ b' ∈ m, b'.cells.isSome → b.path <:+ b'.path → b' = b)
    (hs : ∀ b ∈ m, b.cells.isSome → ClosestPts m b.path (src b) (pts b))
    (hnest : ∀ b ∈ m, b.cells.isSome → ∀ b' ∈ m, b'.pts.isSome → (src b).path <:+ b'.path → b' = src b)
    (hr : ∀ b ∈ m, ∀ c, b.cells = some c → (∀ n, UsesNode c.topo n → n < (pts b).x.length) ∧ ∀ row ∈ c.topo, row.length = (cls b).nnode) :
    ∃ gs : List (VtkGrid P), toVtk cls m p true = some (.multi gs) ∧ gs.length = (cellsUnder m p).length ∧
      (gs = [] → toVtk cls m p false = none) ∧ (∀ g, gs = [g] → toVtk cls m p false = some (.one g)) ∧
      (2 ≤ gs.length → toVtk cls m p false = some (.list gs)) ∧
      ∀ (i : Nat) (b : MBlock P D) (c : CData D), (cellsUnder m p)[i]? = some (b, c) → ∃ g t, gs[i]? = some g ∧ g.type = (cls b).vtk ∧
        vtkRead g.ncells g.cells = some (t, []) ∧ ShowsCells (pts b).x c.topo g.points t := by
  have key : ∀ bc ∈ cellsUnder m p, ∃ g t, ((detachBlock .nothing m bc.1 bc.2).bind fun r => vtkGrid r.1 r.2.1 (cls bc.1).nnode (cls bc.1).vtk) = some g ∧
      g.type = (cls bc.1).vtk ∧ vtkRead g.ncells g.cells = some (t, []) ∧ ShowsCells (pts bc.1).x bc.2.topo g.points t := by
    rintro ⟨b, c⟩ hbc
    obtain ⟨hb, -, hc⟩ := mem_cellsUnder.1 hbc
    have hsome : b.cells.isSome := by rw [hc]; rfl
    obtain ⟨hr1, hr2⟩ := hr b hb c hc
    obtain ⟨⟨x, t, h1, h2⟩, -⟩ := C79_shown_partial hm hb hc (hflat b hb hsome) (hs b hb hsome) (hnest b hb hsome) hr1
    have hw : ∀ row ∈ t, row.length = (cls b).nnode := by
      intro row hrow
      have : row.length ∈ t.map List.length := List.mem_map.2 ⟨row, hrow, rfl⟩
      rw [h2.shape] at this
      obtain ⟨r, hr, e⟩ := List.mem_map.1 this
      rw [← e, hr2 r hr]
    obtain ⟨g, g1, g2, g3, g4⟩ := C92_array x t (cls b).nnode (cls b).vtk hw
    refine ⟨g, t, by rw [h1]; exact g1, g3, g4, ?_⟩
    rw [g2]
    exact h2
  obtain ⟨gs, hgs, -, -⟩ := mapM_exists (P := fun _ _ _ => True) (l := cellsUnder m p) (f := fun bc : MBlock P D × CData D =>
    (detachBlock .nothing m bc.1 bc.2).bind fun r => vtkGrid r.1 r.2.1 (cls bc.1).nnode (cls bc.1).vtk)
    fun i bc hbc => by obtain ⟨g, t, h, -⟩ := key bc (List.mem_of_getElem? hbc); exact ⟨g, h, trivial⟩
  refine ⟨gs, by rw [toVtk, hgs]; rfl, mapM_length hgs, ?_, ?_, ?_, ?_⟩
  · rintro rfl
    rw [toVtk, hgs]; rfl
  · rintro g rfl
    rw [toVtk, hgs]; rfl
  · intro h
    rw [toVtk, hgs]
    match gs, h with
    | _ :: _ :: _, _ => rfl
  · intro i b c hi
    obtain ⟨g, h1, h2⟩ := mapM_get hgs hi
    obtain ⟨g', t, h3, h4⟩ := key (b, c) (List.mem_of_getElem? hi)
    rw [h3] at h1
    obtain rfl := Option.some.inj h1
    exact ⟨g', t, h2, h4⟩

/-- A case: two blocks of lines which share the points of their parent. -/
example : ((toVtk (fun _ => ⟨"L2", some 3, 2, 1⟩) flatMesh [] false).map fun
    | .list gs => gs.map fun g => (g.points.length, g.ncells, g.cells, g.type)
    | _ => []) = some [(2, 1, [2, 0, 1], some 3), (2, 1, [2, 1, 0], some 3)] := by decide +kernel

/-! ## tables of classes -/

section
variable {κ β : Type} [DecidableEq κ]

theorem getKey_cons (p : κ × β) (d : List (κ × β)) (k : κ) : getKey (p :: d) k = if p.1 = k then some p.2 else getKey d k := by
  unfold getKey
  by_cases h : p.1 = k <;> simp [h]

theorem putKey_new {d : List (κ × β)} {k : κ} (h : k ∉ d.map Prod.fst) (v : β) : putKey d k v = d ++ [(k, v)] := by
  unfold putKey
  rw [if_neg]
  intro h'
  obtain ⟨p, hp, e⟩ := List.any_eq_true.1 h'
  simp only [decide_eq_true_eq] at e
  exact h (List.mem_map.2 ⟨p, hp, e⟩)

theorem getKey_putKey (d : List (κ × β)) (k : κ) (v : β) : getKey (putKey d k v) k = some v := by
  by_cases h : k ∈ d.map Prod.fst
  · unfold putKey
    rw [if_pos (by simpa using h)]
    induction d with
    | nil => simp at h
    | cons p d ih =>
      rw [List.map_cons, getKey_cons]
      by_cases hp : p.1 = k
      · simp [hp]
      · simp only [hp, if_false]
        apply ih
        rw [List.map_cons, List.mem_cons] at h
        rcases h with h | h
        · exact absurd h.symm hp
        · exact h
  · rw [putKey_new h]
    induction d with
    | nil => simp [getKey]
    | cons p d ih =>
      rw [List.map_cons, List.mem_cons, not_or] at h
      rw [List.cons_append, getKey_cons, if_neg fun e => h.1 e.symm, ih h.2]

end

/-- **C92** (types): every type of cells that the library has is read as the class of the package `cells` with this type, which has as many nodes as the
cells of VTK. -/
theorem C92_types (k n : Nat) (h : vtkNodes k = some n) :
    ∃ c, getKey (vtkTable cellClasses) k = some c ∧ getKey (meshioTable meshioName cellClasses) (meshioName k) = some c ∧ c.vtk = some k ∧
      c.nnode = n ∧ c.name ∈ ["L2", "T3", "Q4", "Q9", "T6", "H8", "H27", "TET4", "TET10", "W6", "W18"] := by
  have check : ∀ k ∈ [3, 5, 9, 10, 12, 13, 22, 24, 28, 29, 32], (getKey (vtkTable cellClasses) k).any (fun c =>
      decide (getKey (meshioTable meshioName cellClasses) (meshioName k) = some c ∧ c.vtk = some k ∧ vtkNodes k = some c.nnode ∧
      c.name ∈ ["L2", "T3", "Q4", "Q9", "T6", "H8", "H27", "TET4", "TET10", "W6", "W18"])) = true := by decide +kernel
  have hk : k ∈ [3, 5, 9, 10, 12, 13, 22, 24, 28, 29, 32] := by
    unfold vtkNodes at h
    split at h <;> simp_all
  have := check k hk
  rw [Option.any_eq_true_iff_get] at this
  obtain ⟨hs, hd⟩ := this
  rw [decide_eq_true_eq] at hd
  obtain ⟨h1, h2, h3, h4⟩ := hd
  rw [h] at h3
  exact ⟨_, (Option.some_get hs).symm, h1, h2, (Option.some.inj h3).symm, h4⟩

/-- Specification: the shapes behind the types of VTK, their names in meshio and how many corners they have. -/
def shapeOf : Nat → Option (String × Nat)
  | 3 => some ("line", 2)
  | 5 | 22 => some ("triangle", 3)
  | 9 | 28 => some ("quad", 4)
  | 10 | 24 => some ("tetra", 4)
  | 12 | 29 => some ("hexahedron", 8)
  | 13 | 32 => some ("wedge", 6)
  | _ => none

/-- **C92** (names): cells without further nodes have the name of the shape, the other ones that name with the number of their nodes. -/
theorem C92_names (k n m : Nat) (s : String) (h : vtkNodes k = some n) (hs : shapeOf k = some (s, m)) :
    meshioName k = if n = m then s else s ++ toString n := by
  have check : ∀ k ∈ [3, 5, 9, 10, 12, 13, 22, 24, 28, 29, 32], (vtkNodes k).any (fun n => (shapeOf k).any fun p =>
      decide (meshioName k = if n = p.2 then p.1 else p.1 ++ toString n)) = true := by decide +kernel
  have hk : k ∈ [3, 5, 9, 10, 12, 13, 22, 24, 28, 29, 32] := by
    unfold vtkNodes at h
    split at h <;> simp_all
  simpa [h, hs] using check k hk

/-- **C92** (types): a class that is defined later replaces the one with the same type. -/
theorem C92_later (classes : List CellClass) (c : CellClass) (k : Nat) (h : c.vtk = some k) :
    getKey (vtkTable (classes ++ [c])) k = some c := by
  unfold vtkTable
  rw [List.foldl_append, List.foldl_cons, List.foldl_nil, h]
  exact getKey_putKey _ _ _

/-- **C92** is false for lines with three nodes (type 21 of VTK): their class has no type. -/
theorem C92_line3_false : (∃ c ∈ cellClasses, c.name = "L3" ∧ c.nnode = 3 ∧ c.ndim = 1) ∧ getKey (vtkTable cellClasses) 21 = none ∧
    fromPv (vtkTable cellClasses) [(21, [[0, 2, 1]])] = none ∧
    fromMeshio (meshioTable meshioName cellClasses) [("line3", [[0, 2, 1]])] = [] := by
  decide +kernel

/-! ## reading -/

/-- **C92** (meshio): for cells of different types, one block per known type with its cells, in order. -/
theorem C92_meshio_partial (table : List (String × CellClass)) (cells : List (String × Topo)) (hn : (cells.map Prod.fst).Nodup) :
    fromMeshio table cells = cells.filterMap fun c => (getKey table c.1).map fun k => (c.1, k, c.2) := by
  have gen : ∀ (cells : List (String × Topo)) (d : List (String × CellClass × Topo)), (cells.map Prod.fst).Nodup →
      (∀ c ∈ cells, c.1 ∉ d.map Prod.fst) →
      cells.foldl (fun d c => match getKey table c.1 with
        | some k => putKey d c.1 (k, c.2)
        | none => d) d = d ++ cells.filterMap fun c => (getKey table c.1).map fun k => (c.1, k, c.2) := by
    intro cells
    induction cells with
    | nil => intro d _ _; simp
    | cons c cells ih =>
      intro d hn hd
      rw [List.map_cons, List.nodup_cons] at hn
      rw [List.foldl_cons, List.filterMap_cons]
      cases hk : getKey table c.1 with
      | none => exact ih d hn.2 fun c' hc' => hd c' (List.mem_cons_of_mem _ hc')
      | some k =>
        simp only [Option.map_some]
        rw [putKey_new (hd c List.mem_cons_self), ih _ hn.2, List.append_assoc]
        · rfl
        · intro c' hc'
          rw [List.map_append, List.mem_append, not_or]
          refine ⟨hd c' (List.mem_cons_of_mem _ hc'), ?_⟩
          simp only [List.map_cons, List.map_nil, List.mem_singleton]
          intro e
          exact hn.1 (e ▸ List.mem_map.2 ⟨c', hc', rfl⟩)
  have := gen cells [] hn (by simp)
  rw [List.nil_append] at this
  rw [← this]
  unfold fromMeshio
  congr 1

/-- A case: triangles and quadrilaterals. -/
example : (fromMeshio (meshioTable meshioName cellClasses) [("triangle", [[0, 1, 2]]), ("quad", [[1, 3, 4, 2]])]).map
    (fun b => (b.1, b.2.1.name, b.2.2)) = [("triangle", "T3", [[0, 1, 2]]), ("quad", "Q4", [[1, 3, 4, 2]])] := by decide +kernel

/-- **C92** is false for meshes with several groups of cells of one type: only the last one is kept; and for cells of unknown types: they are left out. -/
theorem C92_meshio_false :
    (fromMeshio (meshioTable meshioName cellClasses) [("triangle", [[0, 1, 2]]), ("quad", [[1, 3, 4, 2]]), ("triangle", [[3, 4, 5]]),
      ("pyramid", [[0, 1, 2, 3, 4]])]).map (fun b => (b.1, b.2.2)) = [("triangle", [[3, 4, 5]]), ("quad", [[1, 3, 4, 2]])] := by decide +kernel

/-- **C92** (PyVista): one block per type with its cells, in order; cells of an unknown type are an error. The types are the keys of a dictionary. -/
theorem C92_pv (table : List (Nat × CellClass)) (cells : List (Nat × Topo)) (hn : (cells.map Prod.fst).Nodup) :
    ((∀ c ∈ cells, (getKey table c.1).isSome) → ∃ r, fromPv table cells = some r ∧ r.length = cells.length ∧
      ∀ (i k : Nat) (t : Topo), cells[i]? = some (k, t) → ∃ c, getKey table k = some c ∧ r[i]? = some (k, c, t)) ∧
    ((∃ c ∈ cells, getKey table c.1 = none) → fromPv table cells = none) := by
  have snoc : ∀ cells c, fromPv table (cells ++ [c]) = (fromPv table cells).bind fun d => (getKey table c.1).map fun k => putKey d c.1 (k, c.2) := by
    intro cells c
    simp only [fromPv, List.foldl_append, List.foldl_cons, List.foldl_nil]
  constructor
  · intro h
    have : ∃ r, fromPv table cells = some r ∧ r.map Prod.fst = cells.map Prod.fst ∧
        ∀ (i k : Nat) (t : Topo), cells[i]? = some (k, t) → ∃ c, getKey table k = some c ∧ r[i]? = some (k, c, t) := by
      induction cells using List.reverseRecOn with
      | nil => exact ⟨[], rfl, rfl, by simp⟩
      | append_singleton cells c ih =>
        rw [List.map_append, List.nodup_append] at hn
        obtain ⟨r, h1, h2, h3⟩ := ih hn.1 fun c hc => h c (List.mem_append_left _ hc)
        obtain ⟨k, hk⟩ := Option.isSome_iff_exists.1 (h c (by simp))
        have hnew : c.1 ∉ r.map Prod.fst := by
          rw [h2]
          intro hc
          exact hn.2.2 c.1 hc c.1 (by simp) rfl
        refine ⟨r ++ [(c.1, k, c.2)], ?_, by simp [h2], ?_⟩
        · rw [snoc, h1, hk, Option.bind_some, Option.map_some, putKey_new hnew]
        · have hl : r.length = cells.length := by simpa using congrArg List.length h2
          intro i k' t hi
          rcases lt_or_ge i cells.length with hlt | hge
          · rw [List.getElem?_append_left hlt] at hi
            obtain ⟨c', h4, h5⟩ := h3 i k' t hi
            exact ⟨c', h4, by rw [List.getElem?_append_left (by omega)]; exact h5⟩
          · rw [List.getElem?_append_right hge] at hi
            have hi0 : i - cells.length = 0 := by
              have := (List.getElem?_eq_some_iff.1 hi).1
              simp at this
              omega
            rw [hi0] at hi
            simp only [List.getElem?_cons_zero, Option.some.injEq] at hi
            subst hi
            exact ⟨k, hk, by rw [List.getElem?_append_right (by omega), hl, hi0]; rfl⟩
    obtain ⟨r, h1, h2, h3⟩ := this
    exact ⟨r, h1, by simpa using congrArg List.length h2, h3⟩
  · intro h
    clear hn
    induction cells using List.reverseRecOn with
    | nil => simp at h
    | append_singleton cells c ih =>
      rw [snoc]
      obtain ⟨c', hc', hnone⟩ := h
      rcases List.mem_append.1 hc' with hc' | hc'
      · rw [ih ⟨c', hc', hnone⟩]; rfl
      · rw [List.mem_singleton] at hc'
        subst hc'
        rw [hnone]
        cases fromPv table cells <;> rfl

end PM
