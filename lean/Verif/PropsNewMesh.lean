import Verif.NewMesh
import Verif.PropsElevate
import Verif.PropsGridNamed

/-!
# C93: the constructors of meshes
-/

namespace PM

/-! ## meshes of any cells -/

/-- **C93** (PolyData): with a class, the mesh has the points, the cells and the class that are given; without one, the class has the number of nodes of
the cells, and there is such a class exactly for cells of 2, 3, 4, 6, 8, 9, 10, 18 and 27 nodes. -/
theorem C93_poly_partial {P ι : Type} (coords : Option (List P)) (w : Nat) (t : List (List ι)) :
    (∀ c, buildMesh polyClasses coords (some (w, t)) (.cls c) = some ⟨coords, some (c, t)⟩) ∧
    (w ∈ [2, 3, 4, 6, 8, 9, 10, 18, 27] → ∃ c, buildMesh polyClasses coords (some (w, t)) .absent = some ⟨coords, some (c, t)⟩ ∧ c.nnode = w) ∧
    (w ∉ [2, 3, 4, 6, 8, 9, 10, 18, 27] → buildMesh polyClasses coords (some (w, t)) .absent = none) ∧
    (∀ a, buildMesh (ι := ι) polyClasses coords none a = some ⟨coords, none⟩) ∧
    ∀ table, buildMesh table coords (some (w, t)) .int = none ∧ buildMesh table coords (some (w, t)) .otherClass = none := by
  refine ⟨fun c => rfl, fun h => ?_, fun h => ?_, fun _ => rfl, fun _ => ⟨rfl, rfl⟩⟩
  · have check : ∀ w ∈ [2, 3, 4, 6, 8, 9, 10, 18, 27], (getKey polyClasses w).any (fun c => decide (c.nnode = w)) = true := by decide +kernel
    have := check w h
    rw [Option.any_eq_true_iff_get] at this
    obtain ⟨hs, hd⟩ := this
    rw [decide_eq_true_eq] at hd
    refine ⟨(getKey polyClasses w).get hs, ?_, hd⟩
    simp only [buildMesh, cellClassOf]
    conv_lhs => rw [← Option.some_get hs]
    rfl
  · simp only [List.mem_cons, List.not_mem_nil, or_false, not_or] at h
    obtain ⟨h1, h2, h3, h4, h5, h6, h7, h8, h9⟩ := h
    have : getKey polyClasses w = none := by
      simp [getKey, polyClasses, Ne.symm h1, Ne.symm h2, Ne.symm h3, Ne.symm h4, Ne.symm h5, Ne.symm h6, Ne.symm h7, Ne.symm h8, Ne.symm h9]
    simp [buildMesh, cellClassOf, this]

/-- **C93** the class chosen by the number of nodes is a class of cells of the library, with its own type for VTK (C92), number of nodes and
dimension. -/
theorem C93_classes {P ι : Type} (coords : Option (List P)) (w : Nat) (t : List (List ι)) :
    ∀ table ∈ [polyClasses, triClasses, lineClasses], ∀ mesh, buildMesh table coords (some (w, t)) .absent = some mesh →
      ∃ c ∈ cellClasses, mesh.cells = some (c, t) ∧ c.nnode = w := by
  intro table htable mesh h
  have check : ∀ table ∈ [polyClasses, triClasses, lineClasses], ∀ q ∈ table, q.2 ∈ cellClasses ∧ q.2.nnode = q.1 := by decide +kernel
  obtain ⟨c, hc, rfl⟩ : ∃ c, getKey table w = some c ∧ mesh = ⟨coords, some (c, t)⟩ := by
    simp only [buildMesh, cellClassOf] at h
    cases hk : getKey table w with
    | none => rw [hk] at h; cases h
    | some c =>
      rw [hk] at h
      exact ⟨c, rfl, (Option.some.inj h).symm⟩
  have hmem : (w, c) ∈ table := by
    obtain ⟨q, hq, rfl⟩ := Option.map_eq_some_iff.1 hc
    have h1 := List.find?_some hq
    rw [decide_eq_true_eq] at h1
    rw [← h1]
    exact List.mem_of_find?_eq_some hq
  exact ⟨c, (check table htable _ hmem).1, rfl, (check table htable _ hmem).2⟩

/-- **C93** is false for classes with another number of nodes than the cells: they are accepted. -/
theorem C93_nodes_false : ∃ (c : CellClass) (w : Nat) (t : Topo), (∀ row ∈ t, row.length = w) ∧ c.nnode ≠ w ∧ c ∈ cellClasses ∧
    buildMesh (P := V3 ℚ) polyClasses none (some (w, t)) (.cls c) = some ⟨none, some (c, t)⟩ :=
  ⟨⟨"T6", some 22, 6, 2⟩, 3, [[0, 1, 2]], by decide +kernel, by decide +kernel, by decide +kernel, rfl⟩

/-- **C93** is false for tetrahedra and triangles with six nodes without a class: they are taken for quadrilaterals and wedges. -/
theorem C93_guess_false :
    (⟨"TET4", some 10, 4, 3⟩ ∈ cellClasses ∧ buildMesh (P := V3 ℚ) polyClasses none (some (4, [[0, 1, 2, 3]])) .absent =
      some ⟨none, some (⟨"Q4", some 9, 4, 2⟩, [[0, 1, 2, 3]])⟩) ∧
    (⟨"T6", some 22, 6, 2⟩ ∈ cellClasses ∧ buildMesh (P := V3 ℚ) polyClasses none (some (6, [[0, 1, 2, 3, 4, 5]])) .absent =
      some ⟨none, some (⟨"W6", some 13, 6, 3⟩, [[0, 1, 2, 3, 4, 5]])⟩) := by decide +kernel

/-! ## triangles -/

section
variable {K : Type} [Field K] [CharZero K]

/-- **C93** (TriMesh): triangles with three or six nodes, without a class or with the class of these triangles; triangles with three nodes and the
class of those with six get points in the middle of their edges; triangles with six nodes are no cells of the class of three. -/
theorem C93_tri (tri : Option (List (V3 K)) → Option (List (V3 K) × Topo)) (x : List (V3 K)) (t : Topo) :
    (∀ c ∈ [none, some ⟨"T3", some 5, 3, 2⟩], triMesh tri (some x) none (some (3, t)) none c = some ⟨some x, some (⟨"T3", some 5, 3, 2⟩, t)⟩) ∧
    (∀ c ∈ [none, some ⟨"T6", some 22, 6, 2⟩], triMesh tri (some x) none (some (6, t)) none c = some ⟨some x, some (⟨"T6", some 22, 6, 2⟩, t)⟩) ∧
    (MeshOK x t 3 → ∃ x' t', triMesh tri (some x) none (some (3, t)) none (some ⟨"T6", some 22, 6, 2⟩) =
      some ⟨some x', some (⟨"T6", some 22, 6, 2⟩, t')⟩ ∧ ElevatedMesh x t lcT3 [[[0, 1], [1, 2], [2, 0]]] lcT6 x' t') ∧
    triMesh tri (some x) none (some (6, t)) none (some ⟨"T3", some 5, 3, 2⟩) = none ∧
    ∀ w, w ≠ 3 → w ≠ 6 → triMesh tri (some x) none (some (w, t)) none none = none := by
  refine ⟨?_, ?_, ?_, ?_, ?_⟩
  · intro c hc
    simp only [List.mem_cons, List.not_mem_nil, or_false] at hc
    rcases hc with rfl | rfl <;> rfl
  · intro c hc
    simp only [List.mem_cons, List.not_mem_nil, or_false] at hc
    rcases hc with rfl | rfl <;> rfl
  · intro h
    obtain ⟨x', t', h1, h2⟩ := C12_T3_to_T6 x t h
    refine ⟨x', t', ?_, h2⟩
    simp only [triMesh, triArgs, Option.or, Option.bind_some, triClass, triElevate]
    simp [h1, buildMesh, cellClassOf, triClasses, getKey]
  · rfl
  · intro w h3 h6
    simp [triMesh, triArgs, triClass, h3, h6]

omit [CharZero K] in
/-- **C93** (TriMesh): the class the nodes are checked against, if none is given, is one of the classes of the library with this number of nodes
and the one that the cells of the mesh get. -/
theorem C93_tri_class (tri : Option (List (V3 K)) → Option (List (V3 K) × Topo)) (x : List (V3 K)) (t : Topo) (w : Nat) (c : CellClass)
    (h : triClass w none = some c) :
    c ∈ cellClasses ∧ c.nnode = w ∧ c.ndim = 2 ∧ triMesh tri (some x) none (some (w, t)) none none = some ⟨some x, some (c, t)⟩ := by
  simp only [triClass] at h
  split at h
  · rename_i hw
    subst hw
    obtain rfl := Option.some.inj h
    exact ⟨by decide +kernel, rfl, rfl, rfl⟩
  · split at h
    · rename_i hw
      subst hw
      obtain rfl := Option.some.inj h
      exact ⟨by decide +kernel, rfl, rfl, rfl⟩
    · cases h

/-- **C93** (TriMesh): without triangles, those of the triangulation; if there is none, an error. -/
theorem C93_tri_made (tri : Option (List (V3 K)) → Option (List (V3 K) × Topo)) (points : Option (List (V3 K))) :
    (∀ x t, tri points = some (x, t) → triMesh tri points none none none none = some ⟨some x, some (⟨"T3", some 5, 3, 2⟩, t)⟩ ∧
      (MeshOK x t 3 → ∃ x' t', triMesh tri points none none none (some ⟨"T6", some 22, 6, 2⟩) =
        some ⟨some x', some (⟨"T6", some 22, 6, 2⟩, t')⟩ ∧ ElevatedMesh x t lcT3 [[[0, 1], [1, 2], [2, 0]]] lcT6 x' t')) ∧
    (tri points = none → ∀ c, triMesh tri points none none none c = none) := by
  have hp : points.or none = points := by cases points <;> rfl
  refine ⟨fun x t h => ⟨?_, fun hm => ?_⟩, fun h c => ?_⟩
  · simp [triMesh, triArgs, hp, h, triClass, triElevate, buildMesh, cellClassOf, triClasses, getKey]
  · obtain ⟨x', t', h1, h2⟩ := C12_T3_to_T6 x t hm
    refine ⟨x', t', ?_, h2⟩
    simp [triMesh, triArgs, hp, h, triClass, triElevate, h1, buildMesh, cellClassOf, triClasses, getKey]
  · simp [triMesh, triArgs, hp, h]

omit [CharZero K] in
/-- **C93** is false for `coords` and `topo`, the names of the parent class which are said to be available: they are an error. -/
theorem C93_names_false (tri : Option (List (V3 K)) → Option (List (V3 K) × Topo)) (points coords : Option (List (V3 K)))
    (triangles topo : Option (TopoArg Nat)) (c : Option CellClass) (h : coords.isSome ∨ topo.isSome) :
    triMesh tri points coords triangles topo c = none := by
  have e : (coords.isSome || topo.isSome) = true := by simpa using h
  simp only [triMesh, e, if_true, ite_self, Option.bind_eq_none_iff]
  intros
  trivial

omit [CharZero K] in
/-- **C93** is false for other classes of triangles: the mesh has cells of class `T3`. -/
theorem C93_subclass_false (tri : Option (List (V3 K)) → Option (List (V3 K) × Topo)) (x : List (V3 K)) (t : Topo) (c : CellClass) (h : c.nnode = 3) :
    triMesh tri (some x) none (some (3, t)) none (some c) = some ⟨some x, some (⟨"T3", some 5, 3, 2⟩, t)⟩ := by
  simp [triMesh, triArgs, triClass, triElevate, h, buildMesh, cellClassOf, triClasses, getKey]

/-- A case: a triangle with three nodes as one with six. -/
example : triMesh (K := ℚ) (fun _ => none) (some [⟨0, 0, 0⟩, ⟨2, 0, 0⟩, ⟨0, 2, 0⟩]) none (some (3, [[0, 1, 2]])) none (some ⟨"T6", some 22, 6, 2⟩) =
    some ⟨some [⟨0, 0, 0⟩, ⟨2, 0, 0⟩, ⟨0, 2, 0⟩, ⟨1, 0, 0⟩, ⟨0, 1, 0⟩, ⟨1, 1, 0⟩], some (⟨"T6", some 22, 6, 2⟩, [[0, 1, 2, 3, 5, 4]])⟩ := by
  decide +kernel

/-! ## tetrahedra -/

omit [Field K] [CharZero K] in
/-- **C93** (TetMesh): tetrahedra with four nodes without a class, and any cells with their class. -/
theorem C93_tet (x : Option (List (V3 K))) (w : Nat) (t : Topo) (c : CellClass) :
    tetMesh x (some (4, t)) .absent = some ⟨x, some (⟨"TET4", some 10, 4, 3⟩, t)⟩ ∧
    tetMesh x (some (w, t)) (.cls c) = some ⟨x, some (c, t)⟩ := ⟨rfl, rfl⟩

omit [Field K] [CharZero K] in
/-- **C93** is false for tetrahedra with ten nodes without a class. -/
theorem C93_tet_false (x : Option (List (V3 K))) (t : Topo) : tetMesh x (some (10, t)) .absent = none := rfl

/-! ## grids -/

/-- The class of the cells of a grid from its name. -/
theorem grid_class {ι : Type} {P : Type} (C : List P) (T : List (List ι)) (w : Nat) (c : CellClass) (hc : getKey polyClasses w = some c) (hT : T ≠ [])
    (hw : ∀ r ∈ T, r.length = w) :
    buildMesh polyClasses (some C) (some ((T.head?.map List.length).getD 0, T)) .absent = some ⟨some C, some (c, T)⟩ := by
  match T, hT with
  | r :: T, _ =>
    have := hw r List.mem_cons_self
    simp only [buildMesh, cellClassOf, List.head?_cons, Option.map_some, Option.getD_some, this, hc]

/-- **C93** (Grid): for the four names, the points and cells of the generated grid, of the class with this name. -/
theorem C93_grid_partial (lX lY lZ : K) (nx ny nz : Nat) (s0 s1 s2 : K) (start : Int) (path : Option (List Nat)) (hx : 1 ≤ nx) (hy : 1 ≤ ny) (hz : 1 ≤ nz) :
    (∃ C T, gridMesh (args2 lX lY nx ny s0 s1 start) (.name "Q4") path .absent = some ⟨some C, some (⟨"Q4", some 9, 4, 2⟩, T)⟩ ∧
      VtkGrid2 lcQ4 (uniAxis lX nx 2 s0) (uniAxis lY ny 2 s1) start C T) ∧
    (∃ C T, gridMesh (args2 lX lY nx ny s0 s1 start) (.name "Q9") path .absent = some ⟨some C, some (⟨"Q9", some 28, 9, 2⟩, T)⟩ ∧
      VtkGrid2 lcQ9 (uniAxis lX nx 3 s0) (uniAxis lY ny 3 s1) start C T) ∧
    (∃ C T, gridMesh (args3 lX lY lZ nx ny nz s0 s1 s2 start) (.name "H8") path .absent = some ⟨some C, some (⟨"H8", some 12, 8, 3⟩, T)⟩ ∧
      VtkGrid3 lcH8 (uniAxis lX nx 2 s0) (uniAxis lY ny 2 s1) (uniAxis lZ nz 2 s2) start C T) ∧
    ∃ C T, gridMesh (args3 lX lY lZ nx ny nz s0 s1 s2 start) (.name "H27") path .absent = some ⟨some C, some (⟨"H27", some 29, 27, 3⟩, T)⟩ ∧
      VtkGrid3 lcH27 (uniAxis lX nx 3 s0) (uniAxis lY ny 3 s1) (uniAxis lZ nz 3 s2) start C T := by
  obtain ⟨e1, e2, e3, e4⟩ := C19_grid_by_name lX lY lZ nx ny nz s0 s1 s2 start path
  have ne : ∀ {n : Nat} {T : List (List Int)}, T.length = n → 1 ≤ n → T ≠ [] := by
    rintro n T h1 h2 rfl
    simp at h1
    omega
  refine ⟨?_, ?_, ?_, ?_⟩
  · obtain ⟨C, T, h1, h2⟩ := C19_gridQ4 lX lY nx ny s0 s1 start ⟨hx, hy⟩
    refine ⟨C, T, ?_, h2⟩
    rw [gridMesh, e1, h1, Option.bind_some]
    exact grid_class C T 4 _ rfl (ne h2.1 (Nat.mul_pos hx hy)) h2.2.1
  · obtain ⟨C, T, h1, h2⟩ := C19_gridQ9 lX lY nx ny s0 s1 start ⟨hx, hy⟩
    refine ⟨C, T, ?_, h2⟩
    rw [gridMesh, e2, h1, Option.bind_some]
    exact grid_class C T 9 _ rfl (ne h2.1 (Nat.mul_pos hx hy)) h2.2.1
  · obtain ⟨C, T, h1, h2⟩ := C19_gridH8 lX lY lZ nx ny nz s0 s1 s2 start ⟨hx, hy, hz⟩
    refine ⟨C, T, ?_, h2⟩
    rw [gridMesh, e3, h1, Option.bind_some]
    exact grid_class C T 8 _ rfl (ne h2.1 (Nat.mul_pos (Nat.mul_pos hx hy) hz)) h2.2.1
  · obtain ⟨C, T, h1, h2⟩ := C19_gridH27 lX lY lZ nx ny nz s0 s1 s2 start ⟨hx, hy, hz⟩
    refine ⟨C, T, ?_, h2⟩
    rw [gridMesh, e4, h1, Option.bind_some]
    exact grid_class C T 27 _ rfl (ne h2.1 (Nat.mul_pos (Nat.mul_pos hx hy) hz)) h2.2.1

end

/-- **C93** is false for plane grids of cells with 2 × 3 nodes, an example of the documentation: their cells are wedges. -/
theorem C93_grid_false :
    (gridMesh (K := ℚ) { size := some [1, 1], shape := some [1, 1] } (.tuple [2, 3]) none .absent).map (fun m => m.cells) =
      some (some (⟨"W6", some 13, 6, 3⟩, [[0, 1, 2, 3, 4, 5]])) := by decide +kernel

/-! ## lines -/

/-- **C93** (LineData): areas that are given are stored, cells without areas have areas of one. -/
theorem C93_areas_partial {K : Type} [Field K] (n : Nat) (a : List K) :
    (a.length = n → ∀ s, lineAreas n s (some a) = some a) ∧ lineAreas (K := K) n none none = some (List.replicate n 1) :=
  ⟨fun h _ => if_pos h, rfl⟩

/-- **C93** is false for cells that have areas: they are lost. -/
theorem C93_areas_false : lineAreas 2 (some [(2 : ℚ), 3]) none = some [1, 1] := by decide +kernel

/-! ## copies -/

/-- **C93** (copies) of meshes of any cells and of lines can be begun. -/
theorem C93_copies (K : Type) [Field K] : emptyMesh K .poly = some () ∧ emptyMesh K .line = some () := ⟨rfl, rfl⟩

/-- **C93** is false for copies of meshes of the classes `TriMesh`, `TetMesh` and `Grid`: an error. -/
theorem C93_copies_false (K : Type) [Field K] : emptyMesh K .tri = none ∧ emptyMesh K .tet = none ∧ emptyMesh K .grid = none := ⟨rfl, rfl, rfl⟩

end PM
