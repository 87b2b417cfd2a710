import Verif.CellTables
import Verif.PropsTopo
import Verif.PropsExtrude
import Verif.PropsCloudMore

/-!
# Properties C03, C11 and C15, once more

Inverse maps as arrays, the arrays of the edges and faces of all cells of a mesh, and extrusions of surfaces along any axis.
-/

set_option linter.unusedSectionVars false
set_option linter.unnecessarySeqFocus false
set_option linter.unusedTactic false
set_option linter.unreachableTactic false

namespace PM
open V3

/-! ## C03: the inverse map as an array -/

/-- **C03** `inds_to_invmap_as_array`, for distinct indices and every schedule: the array has one entry for each number up
to the greatest index, the entry at the `k`-th index is `k`, and what is not an index holds 0. -/
theorem C03_invmap_array (inds : List Nat) (hnd : inds.Nodup) (hne : inds ≠ []) :
    ∃ res mx, indsToInvmapAsArray inds = some res ∧ mx ∈ inds ∧ (∀ n ∈ inds, n ≤ mx) ∧ res.length = mx + 1 ∧
      (∀ k n : Nat, inds[k]? = some n → res[n]? = some k) ∧ (∀ n, n ≤ mx → n ∉ inds → res[n]? = some 0) ∧
      ∀ w, w.Perm inds.zipIdx → toArr (mx + 1) (runW w fun _ => 0) = res := by
  obtain ⟨mx, hmx⟩ := maxNode?_ne_none hne
  obtain ⟨hm, hle⟩ := maxNode?_spec.1 hmx
  have hget : ∀ x ∈ inds.zipIdx, inds[x.2]? = some x.1 := fun x hx => List.mem_zipIdx_iff_getElem?.1 hx
  have hc : Consistent inds.zipIdx := by
    intro x hx y hy hxy
    have h1 := hget x hx
    have h2 := hget y hy
    rw [← hxy] at h2
    exact (List.getElem?_inj (List.getElem?_eq_some_iff.1 h1).1 hnd).1 (h1.trans h2.symm)
  refine ⟨_, mx, by rw [indsToInvmapAsArray, hmx]; rfl, hm, hle, by simp, ?_, ?_, ?_⟩
  · intro k n hk
    have hn := hle n (List.mem_of_getElem? hk)
    rw [toArr_getElem? _ (by omega)]
    exact congrArg some (runW_of_mem hc (x := (n, k)) (List.mem_zipIdx_iff_getElem?.2 hk))
  · intro n hn hni
    rw [toArr_getElem? _ (by omega), runW_of_not_mem]
    intro x hx hxn
    exact hni (hxn ▸ List.mem_of_getElem? (hget x hx))
  · intro w hw
    rw [runW_perm hc hw.symm]

example : indsToInvmapAsArray [4, 1, 2] = some [0, 1, 2, 0, 0] := by decide

/-- **C03** (disagreement) the array does not tell the first index from numbers that are no index at all. -/
theorem C03_invmap_array_false : ¬ ∀ (inds res : List Nat) (n k : Nat), inds.Nodup → indsToInvmapAsArray inds = some res →
    res[n]? = some k → inds[k]? = some n := by
  intro h
  have := h [4, 1, 2] _ 0 0 (by decide) rfl (by decide)
  revert this; decide

/-! ## C11: the arrays of all cells -/

theorem cellCols_forall {A B : Nat} {ws : List (Nat × Nat × Nat)} {topo : Topo} {P : List Nat → List (List Nat) → Prop}
    (hws : (ws.all fun w => w.1 < A && w.2.1 < B) = true) (h : ∀ r ∈ topo, ∃ e, cellCols1 A B ws r = some e ∧ P r e) :
    ∃ E, cellCols A B ws topo = some E ∧ List.Forall₂ P topo E := by
  rw [cellCols, if_pos hws]
  induction topo with
  | nil => exact ⟨[], rfl, .nil⟩
  | cons r t ih =>
    obtain ⟨e, he, hP⟩ := h r List.mem_cons_self
    obtain ⟨E, hE, hF⟩ := ih fun x hx => h x (List.mem_cons_of_mem _ hx)
    exact ⟨e :: E, by rw [List.mapM_cons, he, hE]; rfl, .cons hP hF⟩

theorem forall₂_get? {α β : Type} {P : α → β → Prop} {l : List α} {l' : List β} (h : List.Forall₂ P l l') {k : Nat} {a : α} {b : β}
    (ha : l[k]? = some a) (hb : l'[k]? = some b) : P a b := by
  obtain ⟨h1, rfl⟩ := List.getElem?_eq_some_iff.1 ha
  obtain ⟨h2, rfl⟩ := List.getElem?_eq_some_iff.1 hb
  exact (List.forall₂_iff_get.1 h).2 k h1 h2

theorem len4 {r : List Nat} (h : r.length = 4) : ∃ a b c d, r = [a, b, c, d] := by
  match r, h with
  | [a, b, c, d], _ => exact ⟨a, b, c, d, rfl⟩

theorem len6 {r : List Nat} (h : r.length = 6) : ∃ a b c d e f, r = [a, b, c, d, e, f] := by
  match r, h with
  | [a, b, c, d, e, f], _ => exact ⟨a, b, c, d, e, f, rfl⟩

theorem len8 {r : List Nat} (h : r.length = 8) : ∃ a b c d e f g i, r = [a, b, c, d, e, f, g, i] := by
  match r, h with
  | [a, b, c, d, e, f, g, i], _ => exact ⟨a, b, c, d, e, f, g, i, rfl⟩

/-- **C11** `edges_Q4`, for every mesh: the four sides of every cell, one after the other around it. -/
theorem C11_edges_Q4 (topo : Topo) (h : ∀ r ∈ topo, r.length = 4) : ∃ E, edgesQ4 topo = some E ∧
    List.Forall₂ (fun r e => ∃ a b c d, r = [a, b, c, d] ∧ e = [[a, b], [b, c], [c, d], [d, a]]) topo E := by
  refine cellCols_forall (by decide) fun r hr => ?_
  obtain ⟨a, b, c, d, rfl⟩ := len4 (h r hr)
  exact ⟨_, rfl, a, b, c, d, rfl, rfl⟩

/-- **C11** `edges_W6`, for every mesh: the sides of the first triangle, those of the second, and the three edges between
the triangles. -/
theorem C11_edges_W6 (topo : Topo) (h : ∀ r ∈ topo, r.length = 6) : ∃ E, edgesW6 topo = some E ∧
    List.Forall₂ (fun r s => ∃ a b c d e f, r = [a, b, c, d, e, f] ∧
      s = [[a, b], [b, c], [c, a], [d, e], [e, f], [f, d], [a, d], [b, e], [c, f]]) topo E := by
  refine cellCols_forall (by decide) fun r hr => ?_
  obtain ⟨a, b, c, d, e, f, rfl⟩ := len6 (h r hr)
  exact ⟨_, rfl, a, b, c, d, e, f, rfl, rfl⟩

/-- The boundary of a cell is closed, and its edges are those listed: each directed side of a face is met once, by a face
running through it in the other direction, and the sides of the faces are the edges. -/
def ClosedBy (faces edges : List (List Nat)) : Prop := ∀ a b,
  let D := faces.flatMap dirEdges
  D.count (a, b) = D.count (b, a) ∧ D.count (a, b) ≤ 1 ∧ (D.count (a, b) = 1 ↔ [a, b] ∈ edges ∨ [b, a] ∈ edges)

/-- **C11** `edges_TET4` and `faces_TET4`, for every mesh of tetrahedra: six edges that join the four corners in pairs,
four faces that leave out one corner each; for cells with distinct nodes the faces close the boundary along the edges. -/
theorem C11_arrays_TET4 (topo : Topo) (h : ∀ r ∈ topo, r.length = 4) : ∃ E F, edgesTET4 topo = some E ∧ facesTET4 topo = some F ∧
    List.Forall₂ (fun r s => ∃ a b c d, r = [a, b, c, d] ∧ s = [[a, b], [b, c], [c, a], [a, d], [b, d], [c, d]]) topo E ∧
    List.Forall₂ (fun r s => ∃ a b c d, r = [a, b, c, d] ∧ s = [[a, b, d], [b, c, d], [c, a, d], [a, c, b]]) topo F ∧
    ∀ (k : Nat) (r : List Nat) e f, topo[k]? = some r → E[k]? = some e → F[k]? = some f → r.Nodup → ClosedBy f e := by
  obtain ⟨E, hE, hE'⟩ := cellCols_forall (A := 6) (B := 2) (ws := edgesTET4W) (topo := topo)
    (P := fun r s => ∃ a b c d, r = [a, b, c, d] ∧ s = [[a, b], [b, c], [c, a], [a, d], [b, d], [c, d]]) (by decide)
    fun r hr => by
      obtain ⟨a, b, c, d, rfl⟩ := len4 (h r hr)
      exact ⟨_, rfl, a, b, c, d, rfl, rfl⟩
  obtain ⟨F, hF, hF'⟩ := cellCols_forall (A := 4) (B := 3) (ws := facesTET4W) (topo := topo)
    (P := fun r s => ∃ a b c d, r = [a, b, c, d] ∧ s = [[a, b, d], [b, c, d], [c, a, d], [a, c, b]]) (by decide)
    fun r hr => by
      obtain ⟨a, b, c, d, rfl⟩ := len4 (h r hr)
      exact ⟨_, rfl, a, b, c, d, rfl, rfl⟩
  refine ⟨E, F, hE, hF, hE', hF', fun k r e f hr he hf hn => ?_⟩
  obtain ⟨a, b, c, d, h1, rfl⟩ := forall₂_get? hE' hr he
  obtain ⟨a', b', c', d', h2, rfl⟩ := forall₂_get? hF' hr hf
  rw [h1] at h2
  simp only [List.cons.injEq, and_true] at h2
  obtain ⟨rfl, rfl, rfl, rfl⟩ := h2
  subst h1
  exact fun x y => C11_TET4_closed [a, b, c, d] 0 rfl hn x y

/-- **C11** `edges_H8` and `faces_H8`, for every mesh of hexahedra: the sides of the bottom, of the top, the edges between
them; the six faces; for cells with distinct nodes the faces close the boundary along the edges. -/
theorem C11_arrays_H8 (topo : Topo) (h : ∀ r ∈ topo, r.length = 8) : ∃ E F, edgesH8 topo = some E ∧ facesH8 topo = some F ∧
    List.Forall₂ (fun r s => ∃ a b c d e f g i, r = [a, b, c, d, e, f, g, i] ∧ s = [[a, b], [b, c], [c, d], [d, a],
      [e, f], [f, g], [g, i], [i, e], [a, e], [b, f], [c, g], [d, i]]) topo E ∧
    List.Forall₂ (fun r s => ∃ a b c d e f g i, r = [a, b, c, d, e, f, g, i] ∧ s = [[a, e, i, d], [b, c, g, f], [a, b, f, e],
      [c, d, i, g], [a, d, c, b], [e, f, g, i]]) topo F ∧
    ∀ (k : Nat) (r : List Nat) e f, topo[k]? = some r → E[k]? = some e → F[k]? = some f → r.Nodup → ClosedBy f e := by
  obtain ⟨E, hE, hE'⟩ := cellCols_forall (A := 12) (B := 2) (ws := edgesH8W) (topo := topo)
    (P := fun r s => ∃ a b c d e f g i, r = [a, b, c, d, e, f, g, i] ∧ s = [[a, b], [b, c], [c, d], [d, a],
      [e, f], [f, g], [g, i], [i, e], [a, e], [b, f], [c, g], [d, i]]) (by decide)
    fun r hr => by
      obtain ⟨a, b, c, d, e, f, g, i, rfl⟩ := len8 (h r hr)
      exact ⟨_, rfl, a, b, c, d, e, f, g, i, rfl, rfl⟩
  obtain ⟨F, hF, hF'⟩ := cellCols_forall (A := 6) (B := 4) (ws := facesH8W) (topo := topo)
    (P := fun r s => ∃ a b c d e f g i, r = [a, b, c, d, e, f, g, i] ∧ s = [[a, e, i, d], [b, c, g, f], [a, b, f, e],
      [c, d, i, g], [a, d, c, b], [e, f, g, i]]) (by decide)
    fun r hr => by
      obtain ⟨a, b, c, d, e, f, g, i, rfl⟩ := len8 (h r hr)
      exact ⟨_, rfl, a, b, c, d, e, f, g, i, rfl, rfl⟩
  refine ⟨E, F, hE, hF, hE', hF', fun k r s t hr he hf hn => ?_⟩
  obtain ⟨a, b, c, d, e, f, g, i, h1, rfl⟩ := forall₂_get? hE' hr he
  obtain ⟨a', b', c', d', e', f', g', i', h2, rfl⟩ := forall₂_get? hF' hr hf
  rw [h1] at h2
  simp only [List.cons.injEq, and_true] at h2
  obtain ⟨rfl, rfl, rfl, rfl, rfl, rfl, rfl, rfl⟩ := h2
  subst h1
  exact fun x y => C11_H8_closed [a, b, c, d, e, f, g, i] 0 rfl hn x y

example : ∃ E F, edgesTET4 [[3, 0, 5, 1], [0, 5, 1, 7]] = some E ∧ facesTET4 [[3, 0, 5, 1], [0, 5, 1, 7]] = some F ∧
    E.length = 2 ∧ F.length = 2 := ⟨_, _, rfl, rfl, rfl, rfl⟩

/-- **C11** what the assignments of `faces_W6` to the triangles say, read in an array with one more column: all corners but one are in their places, the corner
3 of the second triangle is one column too far to the right, its own place stays empty. With this assignment in column 2 they are the triangles of
`C11_W6_closed_partial`. -/
theorem C11_faces_W6_columns :
    colTable 2 4 faces2W6W = some [[some 0, some 2, some 1, none], [some 4, some 5, none, some 3]] ∧
    colTable 2 3 (faces2W6W.map fun w => if w.2.1 = 3 then (w.1, 2, w.2.2) else w) = some [[some 0, some 2, some 1], [some 4, some 5, some 3]] := by
  decide +kernel

/-- **C11** (disagreement) `faces_W6` works for no mesh at all: one of its assignments is outside of the array. -/
theorem C11_faces_W6_none (topo : Topo) : facesW6 topo = none := by
  have : cellCols 2 3 faces2W6W topo = none := by rw [cellCols, if_neg (by decide)]
  rw [facesW6, this]; rfl

/-! ## C15: extrusion along any axis -/

section
variable {K : Type} [Field K] [LinearOrder K] [IsStrictOrderedRing K]

/-- Twice the vector area of a triangle. -/
def areaVec (coords : List (V3 K)) (t : Nat × Nat × Nat) : V3 K :=
  let a := coords.getD t.1 0; let b := coords.getD t.2.1 0; let c := coords.getD t.2.2 0
  V3.cross (b - a) (c - a)

/-- Six times the signed volume of a tetrahedron given by its nodes. -/
def vol6Of (C : List (V3 K)) (r : List Nat) : K :=
  vol6 (C.getD (r.getD 0 0) 0) (C.getD (r.getD 1 0) 0) (C.getD (r.getD 2 0) 0) (C.getD (r.getD 3 0) 0)

theorem extrude_vols {points : List (K × K)} {tris : List (Nat × Nat × Nat)} {h : K} {zres : Nat} (ht : TrisOK points.length tris)
    {C : List (List K)} {T : Topo} (hr : extrudeT3TET4 points tris h zres = (C, T)) :
    ∀ r ∈ T, 0 < zres ∧ ∃ t ∈ tris, tetVol6 C r = area2D points t * (h / (zres : Nat)) := by
  rw [extrudeT3TET4, extrudeCoords_eq points h zres (.refl _), extrudeTet_eq _ _ _ (.refl _), Prod.mk.injEq] at hr
  obtain ⟨rfl, rfl⟩ := hr
  intro r hr
  simp only [tetRows, List.mem_flatMap, List.mem_range, List.mem_map] at hr
  obtain ⟨i, hi, t, htm, p, hp, rfl⟩ := hr
  exact ⟨by omega, t, htm, prism_tet_vol (layers_coordRows points h zres) hi (ht t htm) hp⟩

/-- What an extrusion gives when its rows are turned into points by `σ` and the points were projected by `π`. -/
theorem extrude_turned (s : K) (π : V3 K → K × K) (σ : V3 K → V3 K) (hσ : σ 0 = 0)
    (hdet : ∀ p q r t, vol6 (σ p) (σ q) (σ r) (σ t) = s * vol6 p q r t)
    (coords : List (V3 K)) (tris : List (Nat × Nat × Nat)) (h : K) (zres : Nat) (ht : TrisOK coords.length tris)
    (area : Nat × Nat × Nat → K) (harea : ∀ t, area t = s * area2D (coords.map π) t) :
    ∃ C' T, extrudeT3TET4 (coords.map π) tris h zres = (C', T) ∧ ∀ C : List (V3 K),
      C = (C'.map fun x => σ ⟨x.getD 0 0, x.getD 1 0, x.getD 2 0⟩) →
    C.length = coords.length * (zres + 1) ∧ T.length = tris.length * zres * 3 ∧
    (∀ i p q, i ≤ zres → coords[p]? = some q → C[i * coords.length + p]? = some (σ ⟨(π q).1, (π q).2, h * (i : Nat) / (zres : Nat)⟩)) ∧
    (∀ r ∈ T, r.length = 4 ∧ ∀ x ∈ r, x < C.length) ∧
    ((∀ t ∈ tris, 0 < area t) → 0 < h → ∀ r ∈ T, 0 < vol6Of C r) ∧
    (0 < zres → (T.map (vol6Of C)).sum = 3 * (tris.map area).sum * h) := by
  obtain ⟨C', T, hr⟩ : ∃ C' T, extrudeT3TET4 (coords.map π) tris h zres = (C', T) := ⟨_, _, rfl⟩
  have ht' : TrisOK (coords.map π).length tris := by rw [List.length_map]; exact ht
  obtain ⟨hL, hTl, hT4, -, hTn, -, hsum⟩ := C15_extrude_TET4 _ tris h zres ht' C' T hr
  have hvols := extrude_vols ht' hr
  refine ⟨C', T, hr, ?_⟩
  rintro C rfl
  have hv : ∀ r, vol6Of (C'.map fun x => σ ⟨x.getD 0 0, x.getD 1 0, x.getD 2 0⟩) r = s * tetVol6 C' r := by
    intro r
    have hp : ∀ n, (C'.map fun x => σ ⟨x.getD 0 0, x.getD 1 0, x.getD 2 0⟩).getD n 0 = σ (pt3 C' n) := by
      intro n
      have e : C'.getD n [] = C'[n]?.getD [] := List.getD_eq_getElem?_getD
      rw [List.getD_eq_getElem?_getD, List.getElem?_map, pt3, e]
      cases C'[n]? with
      | none => exact hσ.symm
      | some x => rfl
    rw [vol6Of, tetVol6, hp, hp, hp, hp, hdet]
  refine ⟨by rw [List.length_map, hL.length, List.length_map], hTl, ?_, ?_, ?_, ?_⟩
  · intro i p q hi hq
    have := hL.get i p (π q) hi (by rw [List.getElem?_map, hq]; rfl)
    rw [layerNode, List.length_map] at this
    rw [List.getElem?_map, this]
    rfl
  · intro r hr
    rw [List.length_map]
    exact ⟨hT4 r hr, hTn r hr⟩
  · intro hpos hh r hr
    obtain ⟨hz, t, htm, he⟩ := hvols r hr
    have hz' : (0 : K) < (zres : Nat) := by exact_mod_cast hz
    rw [hv, he, ← mul_assoc, ← harea]
    exact mul_pos (hpos t htm) (div_pos hh hz')
  · intro hz
    have e1 : T.map (vol6Of (C'.map fun x => σ ⟨x.getD 0 0, x.getD 1 0, x.getD 2 0⟩)) = T.map fun r => s * tetVol6 C' r :=
      List.map_congr_left fun r _ => hv r
    have e2 : tris.map area = tris.map fun t => s * area2D (coords.map π) t := List.map_congr_left fun t _ => harea t
    rw [e1, e2, List.sum_map_mul_left, List.sum_map_mul_left, hsum hz]
    ring

theorem getD_map_pt {β : Type} (f : V3 K → β) (coords : List (V3 K)) (n : Nat) (d : β) (hd : f 0 = d) :
    (coords.map f).getD n d = f (coords.getD n 0) := by
  rw [List.getD_eq_getElem?_getD, List.getElem?_map, List.getD_eq_getElem?_getD]
  cases coords[n]? with
  | none => exact hd.symm
  | some x => rfl

/-- **C15** `TriMesh.extrude` along any axis. The points are the layers of the surface: the coordinate along the axis is the
height of the layer, the others are those of the point below. The cells are tetrahedra with existing nodes; they have
positive volumes when the triangles turn counter-clockwise around the axis and the height is positive; the volumes add up to
the area of the surface, seen along the axis, times the height. -/
theorem C15_trimesh_axes (axis : Nat) (hax : axis < 3) (coords : List (V3 K)) (tris : List (Nat × Nat × Nat)) (h : K) (zres : Nat)
    (ht : TrisOK coords.length tris) : ∃ C T, trimeshExtrude axis coords tris h zres = some (C, T) ∧
    C.length = coords.length * (zres + 1) ∧ T.length = tris.length * zres * 3 ∧
    (∀ (i p : Nat) q, i ≤ zres → coords[p]? = some q → ∃ v, C[i * coords.length + p]? = some v ∧
      ∀ k, k < 3 → v.comp k = if k = axis then h * (i : Nat) / (zres : Nat) else q.comp k) ∧
    (∀ r ∈ T, r.length = 4 ∧ ∀ x ∈ r, x < C.length) ∧
    ((∀ t ∈ tris, 0 < (areaVec coords t).comp axis) → 0 < h → ∀ r ∈ T, 0 < vol6Of C r) ∧
    (0 < zres → (T.map (vol6Of C)).sum = 3 * (tris.map fun t => (areaVec coords t).comp axis).sum * h) := by
  match axis, hax with
  | 0, _ =>
    obtain ⟨C', T, hr, hall⟩ := extrude_turned (1 : K) (fun p => (p.y, p.z)) (fun v => ⟨v.z, v.x, v.y⟩) rfl
      (by intro p q r t; simp [vol6, det3]; ring) coords tris h zres ht (fun t => (areaVec coords t).comp 0) (by
        intro t
        simp only [areaVec, area2D, V3.comp, getD_map_pt (fun p : V3 K => (p.y, p.z)) coords _ ((0 : K), (0 : K)) rfl, V3.cross,
          V3.sub_y, V3.sub_z]
        ring)
    obtain ⟨h1, h2, h3, h4, h5, h6⟩ := hall _ rfl
    refine ⟨_, T, by rw [trimeshExtrude, hr], h1, h2, fun i p q hi hq => ⟨_, h3 i p q hi hq, ?_⟩, h4, h5, h6⟩
    intro k hk
    match k, hk with
    | 0, _ => rfl
    | 1, _ => rfl
    | 2, _ => rfl
  | 1, _ =>
    obtain ⟨C', T, hr, hall⟩ := extrude_turned (-1 : K) (fun p => (p.x, p.z)) (fun v => ⟨v.x, v.z, v.y⟩) rfl
      (by intro p q r t; simp [vol6, det3]; ring) coords tris h zres ht (fun t => (areaVec coords t).comp 1) (by
        intro t
        simp only [areaVec, area2D, V3.comp, getD_map_pt (fun p : V3 K => (p.x, p.z)) coords _ ((0 : K), (0 : K)) rfl, V3.cross,
          V3.sub_x, V3.sub_z]
        ring)
    obtain ⟨h1, h2, h3, h4, h5, h6⟩ := hall _ rfl
    refine ⟨_, T, by rw [trimeshExtrude, hr], h1, h2, fun i p q hi hq => ⟨_, h3 i p q hi hq, ?_⟩, h4, h5, h6⟩
    intro k hk
    match k, hk with
    | 0, _ => rfl
    | 1, _ => rfl
    | 2, _ => rfl
  | 2, _ =>
    obtain ⟨C', T, hr, hall⟩ := extrude_turned (1 : K) (fun p => (p.x, p.y)) (fun v => ⟨v.x, v.y, v.z⟩) rfl
      (by intro p q r t; simp [vol6, det3]) coords tris h zres ht (fun t => (areaVec coords t).comp 2) (by
        intro t
        simp only [areaVec, area2D, V3.comp, getD_map_pt (fun p : V3 K => (p.x, p.y)) coords _ ((0 : K), (0 : K)) rfl, V3.cross,
          V3.sub_x, V3.sub_y]
        ring)
    obtain ⟨h1, h2, h3, h4, h5, h6⟩ := hall _ rfl
    refine ⟨_, T, by rw [trimeshExtrude, hr], h1, h2, fun i p q hi hq => ⟨_, h3 i p q hi hq, ?_⟩, h4, h5, h6⟩
    intro k hk
    match k, hk with
    | 0, _ => rfl
    | 1, _ => rfl
    | 2, _ => rfl

/-- **C15** `TriMesh.extrude` along any axis keeps the points of surfaces in the coordinate plane through the origin that is
perpendicular to the axis. Missing: other planes (`C15_trimesh_base_false`, `C15_trimesh_upright_false`). -/
theorem C15_trimesh_base_axes_partial (axis : Nat) (hax : axis < 3) (coords : List (V3 K)) (tris : List (Nat × Nat × Nat)) (h : K)
    (zres : Nat) (ht : TrisOK coords.length tris) (hz : ∀ p ∈ coords, p.comp axis = 0) (C : List (V3 K)) (T : Topo)
    (hr : trimeshExtrude axis coords tris h zres = some (C, T)) : ∀ n, n < coords.length → C[n]? = coords[n]? := by
  obtain ⟨C', T', hr', -, -, hget, -⟩ := C15_trimesh_axes axis hax coords tris h zres ht
  rw [hr] at hr'
  simp only [Option.some.injEq, Prod.mk.injEq] at hr'
  obtain ⟨rfl, -⟩ := hr'
  intro n hn
  obtain ⟨v, hv, hc⟩ := hget 0 n _ (Nat.zero_le _) (List.getElem?_eq_getElem hn)
  rw [Nat.zero_mul, Nat.zero_add] at hv
  rw [hv, List.getElem?_eq_getElem hn]
  have hk : ∀ k, k < 3 → v.comp k = coords[n].comp k := by
    intro k hk
    rw [hc k hk]
    split_ifs with e
    · subst e
      rw [hz _ (List.getElem_mem hn)]; simp
    · rfl
  exact congrArg some (V3.ext (hk 0 (by decide)) (hk 1 (by decide)) (hk 2 (by decide)))

/-- The hypotheses are met by a triangle in the plane `y = 0`, seen counter-clockwise from `y > 0`. -/
example : TrisOK 3 [(0, 1, 2)] ∧ (∀ p ∈ ([⟨0, 0, 0⟩, ⟨0, 0, 1⟩, ⟨1, 0, 0⟩] : List (V3 ℚ)), p.comp 1 = 0) ∧
    0 < (areaVec ([⟨0, 0, 0⟩, ⟨0, 0, 1⟩, ⟨1, 0, 0⟩] : List (V3 ℚ)) (0, 1, 2)).comp 1 ∧
    ∃ C T, trimeshExtrude 1 ([⟨0, 0, 0⟩, ⟨0, 0, 1⟩, ⟨1, 0, 0⟩] : List (V3 ℚ)) [(0, 1, 2)] 2 3 = some (C, T) ∧ T.length = 9 := by
  refine ⟨by decide, by decide +kernel, by decide +kernel, _, _, rfl, by decide +kernel⟩

end

/-- **C15** (disagreement) only surfaces perpendicular to the new axis are extruded properly, although the only condition that
is checked is planarity: an upright triangle gives tetrahedra without volume. -/
theorem C15_trimesh_upright_false : ¬ ∀ (coords : List (V3 ℚ)) (tris : List (Nat × Nat × Nat)) (h : ℚ) (zres : Nat)
    (C : List (V3 ℚ)) (T : Topo), 0 < zres → 0 < h → TrisOK coords.length tris → (∀ t ∈ tris, areaVec coords t ≠ 0) →
    trimeshExtrude 2 coords tris h zres = some (C, T) → ∀ r ∈ T, vol6Of C r ≠ 0 := by
  intro hall
  refine hall [⟨0, 0, 0⟩, ⟨1, 0, 0⟩, ⟨0, 0, 1⟩] [(0, 1, 2)] 1 1 _ _ (by decide) (by decide +kernel) (by decide) (by decide +kernel) rfl
    [0, 1, 2, 5] (by decide +kernel) (by decide +kernel)

end PM
