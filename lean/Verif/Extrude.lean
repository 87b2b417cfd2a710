import Verif.Cells
import Verif.Transform

/-!
# Extrusion of triangulations, `src/polymesh/extrude.py`
-/

namespace PM
open V3

/-- Assignment of a row, entry by entry. -/
def rowWrites {α : Type} (row : Nat) (vals : List α) : List ((Nat × Nat) × α) :=
  vals.zipIdx.map fun v => ((row, v.2), v.1)

section
variable {K : Type} [Field K]

/-- Coordinates, extrude.py 16, 18-21 (and 50, 52-55): the assignments to `coords = np.zeros((nC, 3))`. The first
layer gets no `z`. `points[:, :2]` are pairs. -/
def extrudeCoordWrites (points : List (K × K)) (h : K) (zres : Nat) : List ((Nat × Nat) × K) :=
  (points.zipIdx.flatMap fun p => rowWrites p.2 [p.1.1, p.1.2]) ++
  (List.range zres).flatMap fun i => points.zipIdx.flatMap fun p =>
    rowWrites (points.length * (i + 1) + p.2) [p.1.1, p.1.2, h * (i + 1 : Nat) / (zres : Nat)]

/-- Topology of `extrude_T3_TET4`, extrude.py 22-39. A row of `triangles` is a triple. -/
def extrudeTetWrites (nP : Nat) (tris : List (Nat × Nat × Nat)) (zres : Nat) : List ((Nat × Nat) × Nat) :=
  (List.range zres).flatMap fun i => tris.zipIdx.flatMap fun t =>
    let id := i * tris.length * 3 + t.2 * 3
    let (i0, j0, k0) := (t.1.1 + i * nP, t.1.2.1 + i * nP, t.1.2.2 + i * nP)
    let (i1, j1, k1) := (t.1.1 + (i + 1) * nP, t.1.2.1 + (i + 1) * nP, t.1.2.2 + (i + 1) * nP)
    rowWrites id [i0, j0, k0, k1] ++ rowWrites (id + 1) [i0, j0, k1, j1] ++ rowWrites (id + 2) [i0, j1, k1, i1]

/-- Topology of `extrude_T3_W6`, extrude.py 56-66. -/
def extrudeWedgeWrites (nP : Nat) (tris : List (Nat × Nat × Nat)) (zres : Nat) : List ((Nat × Nat) × Nat) :=
  (List.range zres).flatMap fun i => tris.zipIdx.flatMap fun t =>
    let id := i * tris.length + t.2
    let (i0, j0, k0) := (t.1.1 + i * nP, t.1.2.1 + i * nP, t.1.2.2 + i * nP)
    let (i1, j1, k1) := (t.1.1 + (i + 1) * nP, t.1.2.1 + (i + 1) * nP, t.1.2.2 + (i + 1) * nP)
    rowWrites id [i0, j0, k0, i1, j1, k1]

/-- The coordinate array after the assignments `w`. -/
def extrudeCoords (points : List (K × K)) (zres : Nat) (w : List ((Nat × Nat) × K)) : List (List K) :=
  toRows (points.length * (zres + 1)) 3 (runW w fun _ => 0)

/-- `extrude_T3_TET4`, extrude.py 9-40; sequential schedule. -/
def extrudeT3TET4 (points : List (K × K)) (tris : List (Nat × Nat × Nat)) (h : K) (zres : Nat) :
    List (List K) × Topo :=
  (extrudeCoords points zres (extrudeCoordWrites points h zres),
   toRows (tris.length * zres * 3) 4 (runW (extrudeTetWrites points.length tris zres) fun _ => 0))

/-- `extrude_T3_W6`, extrude.py 43-66; sequential schedule. -/
def extrudeT3W6 (points : List (K × K)) (tris : List (Nat × Nat × Nat)) (h : K) (zres : Nat) :
    List (List K) × Topo :=
  (extrudeCoords points zres (extrudeCoordWrites points h zres),
   toRows (tris.length * zres) 6 (runW (extrudeWedgeWrites points.length tris zres) fun _ => 0))

/-- `TriMesh.extrude`, trimesh.py 135-142, without the check for planarity: `axis` is `_newaxis`, the points are
those of the mesh. Returns the points of the new mesh. -/
def trimeshExtrude (axis : Nat) (coords : List (V3 K)) (tris : List (Nat × Nat × Nat)) (h : K) (zres : Nat) :
    Option (List (V3 K) × Topo) :=
  match axis with
  | 0 => let r := extrudeT3TET4 (coords.map fun p => (p.y, p.z)) tris h zres
         some (r.1.map fun x => ⟨x.getD 2 0, x.getD 0 0, x.getD 1 0⟩, r.2)
  | 1 => let r := extrudeT3TET4 (coords.map fun p => (p.x, p.z)) tris h zres
         some (r.1.map fun x => ⟨x.getD 0 0, x.getD 2 0, x.getD 1 0⟩, r.2)
  | 2 => let r := extrudeT3TET4 (coords.map fun p => (p.x, p.y)) tris h zres
         some (r.1.map fun x => ⟨x.getD 0 0, x.getD 1 0, x.getD 2 0⟩, r.2)
  | _ => none

end

/-! ## closed forms -/

/-- The array left by assignments that all agree with `r`, and leave only zeros of `r` out. -/
theorem toRows_runW {α : Type} {n k : Nat} {w : List ((Nat × Nat) × α)} {zero : α} {r : List (List α)}
    (hl : r.length = n) (hk : ∀ x ∈ r, x.length = k)
    (hw : ∀ x ∈ w, nodeAt r x.1.1 x.1.2 = some x.2)
    (hall : ∀ i j, i < n → j < k → (∃ x ∈ w, x.1 = (i, j)) ∨ nodeAt r i j = some zero) :
    toRows n k (runW w fun _ => zero) = r := by
  have hc : Consistent w := by
    intro x hx y hy hxy
    have h1 := hw x hx
    have h2 := hw y hy
    rw [hxy, h2] at h1
    exact (Option.some.inj h1).symm
  apply List.ext_getElem
  · simp [hl]
  · intro i h1 h2
    have hi : i < n := by simpa using h1
    apply List.ext_getElem
    · simp [toRows, hk _ (List.getElem_mem h2)]
    · intro j h3 h4
      have hj : j < k := by rw [hk _ (List.getElem_mem h2)] at h4; exact h4
      have hn : nodeAt r i j = some r[i][j] := by
        simp [nodeAt, List.getElem?_eq_getElem h2, List.getElem?_eq_getElem h4]
      have he : (toRows n k (runW w fun _ => zero))[i][j] = runW w (fun _ => zero) (i, j) := by simp [toRows]
      rw [he]
      by_cases hx : ∃ x ∈ w, x.1 = (i, j)
      · obtain ⟨x, hx, hxe⟩ := hx
        have := hw x hx
        rw [hxe, hn] at this
        rw [← hxe, runW_of_mem hc hx]
        exact (Option.some.inj this).symm
      · rcases hall i j hi hj with h | h
        · exact absurd h hx
        · push Not at hx
          rw [runW_of_not_mem hx]
          rw [hn] at h
          exact (Option.some.inj h).symm

theorem mem_rowWrites {α : Type} {row : Nat} {vals : List α} {x : (Nat × Nat) × α} :
    x ∈ rowWrites row vals ↔ x.1.1 = row ∧ vals[x.1.2]? = some x.2 := by
  obtain ⟨⟨a, b⟩, v⟩ := x
  simp only [rowWrites, List.mem_map, Prod.exists, List.mem_zipIdx_iff_getElem?, Prod.mk.injEq]
  constructor
  · rintro ⟨v', b', h, ⟨rfl, rfl⟩, rfl⟩; exact ⟨rfl, h⟩
  · rintro ⟨rfl, h⟩; exact ⟨v, b, h, ⟨rfl, rfl⟩, rfl⟩

end PM
