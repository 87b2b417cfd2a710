import Verif.RecipeOrder
import Verif.PropsRecipes
import Verif.PropsElevate

/-!
# C77: perforated cubes of second order
-/

namespace PM

theorem cubePts_some {C : List (List ℝ)} (h : ∀ r ∈ C, r.length = 3) : ∃ P, cubePts C = some P ∧ P.length = C.length ∧
    ∀ (i : Nat) (r : List ℝ) (p : V3 ℝ), C[i]? = some r → P[i]? = some p → r = [p.x, p.y, p.z] := by
  unfold cubePts
  apply mapM_exists (P := fun _ (r : List ℝ) (p : V3 ℝ) => r = [p.x, p.y, p.z])
  intro k r hr
  match r, h r (List.mem_of_getElem? hr) with
  | [x, y, z], _ => exact ⟨⟨x, y, z⟩, rfl, rfl⟩

/-- **C77** with tetrahedra (`prismatic=False`) the mesh of second order is that of first order with nodes in the middle of all
edges: the corners and their numbers are kept, every edge has one new node, common to the cells at the edge (C12). Other orders are
refused. -/
theorem C77_second_order {delaunay : List (ℝ × ℝ) → Topo} {lx ly lz radius : ℝ} {nangles : Option Nat} {lmax : Option ℝ}
    {g : List (ℝ × ℝ)} (hg : cubeGridPoints lx ly radius lmax = some g) {pts : List (ℝ × ℝ)}
    (hp : pts = g ++ cubeCircle radius (cubeAngles radius nangles lmax)) (ht : IsTris pts (delaunay pts)) :
    ∃ (C : List (List ℝ)) (T : Topo) (P c : List (V3 ℝ)) (t : Topo),
      perforatedCube delaunay lx ly lz radius nangles lmax false = some (C, T) ∧
      (∀ (i : Nat) (r : List ℝ) (p : V3 ℝ), C[i]? = some r → P[i]? = some p → r = [p.x, p.y, p.z]) ∧ P.length = C.length ∧
      perforatedCubeOrder delaunay lx ly lz radius nangles lmax false 1 = some (P, T) ∧
      perforatedCubeOrder delaunay lx ly lz radius nangles lmax false 2 = some (c, t) ∧
      ElevatedMesh P T lcTET4 [[[0, 1], [1, 2], [2, 0], [0, 3], [1, 3], [2, 3]]] lcTET10 c t ∧
      ∀ prismatic order, order ≠ 1 → order ≠ 2 → perforatedCubeOrder delaunay lx ly lz radius nangles lmax prismatic order = none := by
  subst hp
  obtain ⟨C, kept, tris, h1, h2, h3, h4, h5, h6⟩ := masked_tris ht radius
  have hok : TrisOK (flatPts C).length tris := by simpa [flatPts] using h4
  obtain ⟨e1, e2, e3, -, e5, e6, e7⟩ := C15_extrude_TET4 (flatPts C) tris lz (cubeLayers lz lmax) hok _ _ rfl
  have hrun : perforatedCube delaunay lx ly lz radius nangles lmax false =
      some (extrudeT3TET4 (flatPts C) tris lz (cubeLayers lz lmax)) := by
    rw [perforatedCube, cubeSection, hg, Option.bind_some, h1, Option.bind_some, rowTriples_map, Option.map_some]
    rfl
  have h3 : ∀ r ∈ (extrudeT3TET4 (flatPts C) tris lz (cubeLayers lz lmax)).1, r.length = 3 := by
    intro r hr
    obtain ⟨n, hn⟩ := List.mem_iff_getElem?.1 hr
    have hl := (List.getElem?_eq_some_iff.1 hn).1
    have hl' : n < (flatPts C).length * (cubeLayers lz lmax + 1) := by rw [← e1.length]; exact hl
    have hpos : 0 < (flatPts C).length := Nat.pos_of_ne_zero fun h0 => by rw [h0, Nat.zero_mul] at hl'; omega
    have hm := Nat.mod_lt n hpos
    have hd : n / (flatPts C).length ≤ cubeLayers lz lmax := by
      have := (Nat.div_lt_iff_lt_mul hpos).2 (by rw [Nat.mul_comm]; exact hl')
      omega
    have := e1.get _ _ _ hd (List.getElem?_eq_getElem hm)
    have en : layerNode (flatPts C).length (n / (flatPts C).length) (n % (flatPts C).length) = n := by
      unfold layerNode
      have := Nat.div_add_mod n (flatPts C).length
      rw [Nat.mul_comm] at this
      omega
    rw [en] at this
    have h := hn.symm.trans this
    rw [Option.some.inj h]
    rfl
  obtain ⟨P, p1, p2, p3⟩ := cubePts_some h3
  have hm : MeshOK P (extrudeT3TET4 (flatPts C) tris lz (cubeLayers lz lmax)).2 4 :=
    ⟨e3, fun r hr x hx => by rw [p2]; exact e5 r hr x hx⟩
  obtain ⟨c, t, q1, q2⟩ := C12_TET4_to_TET10 P _ hm
  refine ⟨_, _, P, c, t, hrun, p3, p2, ?_, ?_, q2, ?_⟩
  · rw [perforatedCubeOrder, hrun, Option.bind_some, p1, Option.bind_some, if_pos rfl]
    rfl
  · rw [perforatedCubeOrder, hrun, Option.bind_some, p1, Option.bind_some, if_neg (by decide), if_pos rfl, if_neg (by decide), q1]
  intro b o o1 o2
  simp only [perforatedCubeOrder, o1, o2, if_false]
  cases perforatedCube delaunay lx ly lz radius nangles lmax b with
  | none => rfl
  | some m => rw [Option.bind_some]; cases cubePts m.1 <;> rfl

/-- (negation) With prisms, the default, the second order uses `W6_to_W18`, which writes outside of an array (see
`C12_W6_to_W18_false`): there is no defined result. -/
theorem C77_prisms_false (delaunay : List (ℝ × ℝ) → Topo) (lx ly lz radius : ℝ) (nangles : Option Nat) (lmax : Option ℝ) :
    perforatedCubeOrder delaunay lx ly lz radius nangles lmax true 2 = none := by
  simp only [perforatedCubeOrder, if_true, C12_W6_to_W18_false]
  cases perforatedCube delaunay lx ly lz radius nangles lmax true with
  | none => rfl
  | some m => rw [Option.bind_some]; cases cubePts m.1 <;> rfl

/-- A case to which this applies: a cube with a hole and a triangulation with one triangle. -/
example : ∃ c t, perforatedCubeOrder (fun _ => [[0, 1, 2]]) 4 4 1 1 none none false 2 = some (c, t) := by
  obtain ⟨s, g, -, -, -, hg, -⟩ := C77_grid (lx := 4) (ly := 4) (radius := 1) (lmax := none) (by simp)
  obtain ⟨-, -, -, c, t, -, -, -, -, h, -⟩ := C77_second_order (delaunay := fun _ => [[0, 1, 2]]) (lz := 1) (nangles := none) hg rfl (by
    intro t ht
    simp only [List.mem_singleton] at ht
    subst ht
    simp [cubeCircle, cubeAngles, linspaceOpen])
  exact ⟨c, t, h⟩

end PM
