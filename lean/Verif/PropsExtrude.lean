import Verif.Extrude
import Verif.PropsCells

/-!
# Property C15 (extrusion)
-/

set_option linter.unusedSectionVars false
set_option linter.unnecessarySeqFocus false
set_option linter.unusedTactic false
set_option linter.unreachableTactic false

namespace PM
open V3

/-! ## specification -/

/-- The node of layer `i` above point `p`. -/
def layerNode (nP i p : Nat) : Nat := i * nP + p

/-- Nodes of the prism of layer `i` over a triangle, lower triangle first. -/
def prism (nP i : Nat) (t : Nat × Nat × Nat) : List Nat :=
  [layerNode nP i t.1, layerNode nP i t.2.1, layerNode nP i t.2.2,
   layerNode nP (i + 1) t.1, layerNode nP (i + 1) t.2.1, layerNode nP (i + 1) t.2.2]

/-- The split of a prism (numbered like a `W6` cell). -/
def pathExtrude : List (List Nat) := [[0, 1, 2, 5], [0, 1, 5, 4], [0, 4, 5, 3]]

section
variable {K : Type} [Field K]

/-- Point of a row of coordinates. -/
def pt3 (C : List (List K)) (n : Nat) : V3 K :=
  ⟨(C.getD n []).getD 0 0, (C.getD n []).getD 1 0, (C.getD n []).getD 2 0⟩

/-- Twice the signed area of a triangle of the plane. -/
def area2D (points : List (K × K)) (t : Nat × Nat × Nat) : K :=
  let a := points.getD t.1 (0, 0); let b := points.getD t.2.1 (0, 0); let c := points.getD t.2.2 (0, 0)
  (b.1 - a.1) * (c.2 - a.2) - (c.1 - a.1) * (b.2 - a.2)

/-- Six times the volume of a tetrahedron given by its nodes. -/
def tetVol6 (C : List (List K)) (r : List Nat) : K :=
  vol6 (pt3 C (r.getD 0 0)) (pt3 C (r.getD 1 0)) (pt3 C (r.getD 2 0)) (pt3 C (r.getD 3 0))

/-- All triangles refer to existing points. -/
def TrisOK (nP : Nat) (tris : List (Nat × Nat × Nat)) : Prop := ∀ t ∈ tris, t.1 < nP ∧ t.2.1 < nP ∧ t.2.2 < nP

instance (nP : Nat) (tris : List (Nat × Nat × Nat)) : Decidable (TrisOK nP tris) := by
  unfold TrisOK; infer_instance

theorem pathExtrude_ok : ∀ p ∈ pathExtrude, p.length = 4 ∧ p.take 4 = p ∧ ∀ q ∈ p, q < 6 := by decide

/-! ## closed forms of the loops, for any schedule -/

def coordRows (points : List (K × K)) (h : K) (zres : Nat) : List (List K) :=
  (List.range (zres + 1)).flatMap fun i => points.map fun p => [p.1, p.2, h * (i : Nat) / (zres : Nat)]

def tetRows (nP : Nat) (tris : List (Nat × Nat × Nat)) (zres : Nat) : Topo :=
  (List.range zres).flatMap fun i => tris.flatMap fun t =>
    pathExtrude.map fun p => p.map fun q => (prism nP i t).getD q 0

def wedgeRows (nP : Nat) (tris : List (Nat × Nat × Nat)) (zres : Nat) : Topo :=
  (List.range zres).flatMap fun i => tris.map (prism nP i)

theorem coordRows_length (points : List (K × K)) (h : K) (zres : Nat) :
    (coordRows points h zres).length = points.length * (zres + 1) := by
  rw [coordRows, length_flatMap_block (n := points.length) (by simp)]; simp

theorem coordRows_get {points : List (K × K)} {h : K} {zres i p : Nat} (hi : i ≤ zres) (hp : p < points.length) :
    (coordRows points h zres)[i * points.length + p]? =
      some [points[p].1, points[p].2, h * (i : Nat) / (zres : Nat)] := by
  rw [coordRows, getElem?_flatMap_block (n := points.length) (by simp) hp, List.getElem?_range (by omega)]
  simp [List.getElem?_eq_getElem hp]

theorem extrudeCoords_eq (points : List (K × K)) (h : K) (zres : Nat) {w : List ((Nat × Nat) × K)}
    (hw : w.Perm (extrudeCoordWrites points h zres)) : extrudeCoords points zres w = coordRows points h zres := by
  apply toRows_runW (coordRows_length ..)
  · intro x hx
    simp only [coordRows, List.mem_flatMap, List.mem_map] at hx
    obtain ⟨_, _, _, _, rfl⟩ := hx; rfl
  · intro x hx
    rw [hw.mem_iff] at hx
    simp only [extrudeCoordWrites, List.mem_append, List.mem_flatMap, mem_rowWrites, List.mem_range,
      Prod.exists, List.mem_zipIdx_iff_getElem?] at hx
    obtain ⟨⟨r, c⟩, v⟩ := x
    rcases hx with ⟨a, b, p, hp, rfl, hv⟩ | ⟨i, hi, a, b, p, hp, rfl, hv⟩
    · have hpl := (List.getElem?_eq_some_iff.1 hp)
      have := coordRows_get (h := h) (Nat.zero_le zres) hpl.1
      rw [Nat.zero_mul, Nat.zero_add, hpl.2] at this
      simp only [nodeAt, this, Option.bind_eq_bind, Option.bind_some]
      match c with
      | 0 => simpa using hv
      | 1 => simpa using hv
      | c + 2 => simp at hv
    · have hpl := (List.getElem?_eq_some_iff.1 hp)
      have := coordRows_get (h := h) (show i + 1 ≤ zres by omega) hpl.1
      rw [hpl.2, Nat.mul_comm] at this
      simp only [nodeAt, this, Option.bind_eq_bind, Option.bind_some]
      simpa using hv
  · intro r c hr hc
    obtain ⟨i, p, hi, hp, rfl⟩ := mixed_radix_exists hr
    have hrow := coordRows_get (h := h) (show i ≤ zres by omega) hp
    cases i with
    | zero =>
      rw [Nat.zero_mul, Nat.zero_add] at *
      by_cases hc2 : c < 2
      · left
        refine ⟨((p, c), [points[p].1, points[p].2].getD c 0), ?_, rfl⟩
        rw [hw.mem_iff, extrudeCoordWrites, List.mem_append]
        left
        rw [List.mem_flatMap]
        refine ⟨(points[p], p), by simp [List.mem_zipIdx_iff_getElem?, List.getElem?_eq_getElem hp], ?_⟩
        rw [mem_rowWrites]
        refine ⟨rfl, ?_⟩
        match c, hc2 with
        | 0, _ => rfl
        | 1, _ => rfl
      · right
        obtain rfl : c = 2 := by omega
        simp [nodeAt, hrow]
    | succ i =>
      left
      refine ⟨(((i + 1) * points.length + p, c), [points[p].1, points[p].2, h * ((i + 1 : Nat) : K) / (zres : Nat)].getD c 0), ?_, rfl⟩
      rw [hw.mem_iff, extrudeCoordWrites, List.mem_append]
      right
      rw [List.mem_flatMap]
      refine ⟨i, by simp; omega, ?_⟩
      rw [List.mem_flatMap]
      refine ⟨(points[p], p), by simp [List.mem_zipIdx_iff_getElem?, List.getElem?_eq_getElem hp], ?_⟩
      rw [mem_rowWrites]
      refine ⟨by simp [Nat.mul_comm], ?_⟩
      match c, hc with
      | 0, _ => rfl
      | 1, _ => rfl
      | 2, _ => rfl

end

theorem prismRows_length (nP i : Nat) (tris : List (Nat × Nat × Nat)) :
    (tris.flatMap fun t => pathExtrude.map fun p => p.map fun q => (prism nP i t).getD q 0).length = 3 * tris.length :=
  length_flatMap_block (by simp [pathExtrude])

theorem tetRows_length (nP : Nat) (tris : List (Nat × Nat × Nat)) (zres : Nat) :
    (tetRows nP tris zres).length = tris.length * zres * 3 := by
  rw [tetRows, length_flatMap_block (n := 3 * tris.length) (fun i _ => prismRows_length nP i tris), List.length_range]
  rw [Nat.mul_comm 3, Nat.mul_assoc, Nat.mul_assoc, Nat.mul_comm 3]

theorem tetRows_get {nP : Nat} {tris : List (Nat × Nat × Nat)} {zres i j r : Nat} (hi : i < zres) (hj : j < tris.length)
    (hr : r < 3) : (tetRows nP tris zres)[i * tris.length * 3 + j * 3 + r]? =
      some ((pathExtrude.getD r []).map fun q => (prism nP i tris[j]).getD q 0) := by
  have e : i * tris.length * 3 + j * 3 + r = i * (3 * tris.length) + (j * 3 + r) := by
    rw [Nat.mul_assoc, Nat.mul_comm tris.length 3, Nat.add_assoc]
  rw [e, tetRows, getElem?_flatMap_block (n := 3 * tris.length) (fun i _ => prismRows_length nP i tris) (by omega),
    List.getElem?_range hi]
  simp only [Option.bind_eq_bind, Option.bind_some]
  rw [getElem?_flatMap_block (n := 3) (by simp [pathExtrude]) hr, List.getElem?_eq_getElem hj]
  simp only [Option.bind_eq_bind, Option.bind_some, List.getElem?_map]
  match r, hr with
  | 0, _ => rfl
  | 1, _ => rfl
  | 2, _ => rfl

theorem wedgeRows_length (nP : Nat) (tris : List (Nat × Nat × Nat)) (zres : Nat) :
    (wedgeRows nP tris zres).length = tris.length * zres := by
  rw [wedgeRows, length_flatMap_block (n := tris.length) (by simp), List.length_range]

theorem wedgeRows_get {nP : Nat} {tris : List (Nat × Nat × Nat)} {zres i j : Nat} (hi : i < zres) (hj : j < tris.length) :
    (wedgeRows nP tris zres)[i * tris.length + j]? = some (prism nP i tris[j]) := by
  rw [wedgeRows, getElem?_flatMap_block (n := tris.length) (by simp) hj, List.getElem?_range hi]
  simp [List.getElem?_eq_getElem hj]

theorem extrudeTet_eq (nP : Nat) (tris : List (Nat × Nat × Nat)) (zres : Nat) {w : List ((Nat × Nat) × Nat)}
    (hw : w.Perm (extrudeTetWrites nP tris zres)) :
    toRows (tris.length * zres * 3) 4 (runW w fun _ => 0) = tetRows nP tris zres := by
  have hmem : ∀ x, x ∈ w ↔ ∃ i j r, ∃ hj : j < tris.length, i < zres ∧ r < 3 ∧
      x.1.1 = i * tris.length * 3 + j * 3 + r ∧
      ((pathExtrude.getD r []).map fun q => (prism nP i tris[j]).getD q 0)[x.1.2]? = some x.2 := by
    intro x
    rw [hw.mem_iff]
    simp only [extrudeTetWrites, List.mem_append, List.mem_flatMap, mem_rowWrites, List.mem_range,
      Prod.exists, List.mem_zipIdx_iff_getElem?]
    constructor
    · rintro ⟨i, hi, a, b, c, j, ht, hx⟩
      obtain ⟨hj, he⟩ := List.getElem?_eq_some_iff.1 ht
      rcases hx with (⟨h1, h2⟩ | ⟨h1, h2⟩) | ⟨h1, h2⟩
      · refine ⟨i, j, 0, hj, hi, by omega, h1, ?_⟩
        rw [he, ← h2]; simp [pathExtrude, prism, layerNode, Nat.add_comm]
      · refine ⟨i, j, 1, hj, hi, by omega, h1, ?_⟩
        rw [he, ← h2]; simp [pathExtrude, prism, layerNode, Nat.add_comm]
      · refine ⟨i, j, 2, hj, hi, by omega, h1, ?_⟩
        rw [he, ← h2]; simp [pathExtrude, prism, layerNode, Nat.add_comm]
    · rintro ⟨i, j, r, hj, hi, hr, h1, h2⟩
      refine ⟨i, hi, tris[j].1, tris[j].2.1, tris[j].2.2, j, List.getElem?_eq_getElem hj, ?_⟩
      match r, hr with
      | 0, _ => left; left; refine ⟨h1, ?_⟩; rw [← h2]; simp [pathExtrude, prism, layerNode, Nat.add_comm]
      | 1, _ => left; right; refine ⟨h1, ?_⟩; rw [← h2]; simp [pathExtrude, prism, layerNode, Nat.add_comm]
      | 2, _ => right; refine ⟨h1, ?_⟩; rw [← h2]; simp [pathExtrude, prism, layerNode, Nat.add_comm]
  apply toRows_runW (tetRows_length ..)
  · intro x hx
    simp only [tetRows, List.mem_flatMap, List.mem_map] at hx
    obtain ⟨_, _, _, _, p, hp, rfl⟩ := hx
    rw [List.length_map]
    revert p; decide
  · intro x hx
    obtain ⟨i, j, r, hj, hi, hr, h1, h2⟩ := (hmem x).1 hx
    rw [nodeAt, h1, tetRows_get hi hj hr]
    exact h2
  · intro row c hrow hc
    left
    rw [Nat.mul_comm _ 3] at hrow
    obtain ⟨m, r, hm, hr, rfl⟩ := mixed_radix_exists hrow
    obtain ⟨i, j, hi, hj, rfl⟩ := mixed_radix_exists hm
    have hl : ((pathExtrude.getD r []).map fun q => (prism nP i tris[j]).getD q 0).length = 4 := by
      rw [List.length_map]
      match r, hr with
      | 0, _ => rfl
      | 1, _ => rfl
      | 2, _ => rfl
    obtain ⟨v, hv⟩ : ∃ v, ((pathExtrude.getD r []).map fun q => (prism nP i tris[j]).getD q 0)[c]? = some v :=
      ⟨_, List.getElem?_eq_getElem (by rw [hl]; exact hc)⟩
    refine ⟨(((i * tris.length + j) * 3 + r, c), v), (hmem _).2 ⟨i, j, r, hj, hi, hr, ?_, hv⟩, rfl⟩
    simp only; rw [Nat.add_mul]

theorem extrudeWedge_eq (nP : Nat) (tris : List (Nat × Nat × Nat)) (zres : Nat) {w : List ((Nat × Nat) × Nat)}
    (hw : w.Perm (extrudeWedgeWrites nP tris zres)) :
    toRows (tris.length * zres) 6 (runW w fun _ => 0) = wedgeRows nP tris zres := by
  have hmem : ∀ x, x ∈ w ↔ ∃ i j, ∃ hj : j < tris.length, i < zres ∧
      x.1.1 = i * tris.length + j ∧ (prism nP i tris[j])[x.1.2]? = some x.2 := by
    intro x
    rw [hw.mem_iff]
    simp only [extrudeWedgeWrites, List.mem_flatMap, mem_rowWrites, List.mem_range,
      Prod.exists, List.mem_zipIdx_iff_getElem?]
    constructor
    · rintro ⟨i, hi, a, b, c, j, ht, h1, h2⟩
      obtain ⟨hj, he⟩ := List.getElem?_eq_some_iff.1 ht
      refine ⟨i, j, hj, hi, h1, ?_⟩
      rw [he, ← h2]; simp [prism, layerNode, Nat.add_comm]
    · rintro ⟨i, j, hj, hi, h1, h2⟩
      refine ⟨i, hi, tris[j].1, tris[j].2.1, tris[j].2.2, j, List.getElem?_eq_getElem hj, h1, ?_⟩
      rw [← h2]; simp [prism, layerNode, Nat.add_comm]
  apply toRows_runW (wedgeRows_length ..)
  · intro x hx
    simp only [wedgeRows, List.mem_flatMap, List.mem_map] at hx
    obtain ⟨_, _, _, _, rfl⟩ := hx
    rfl
  · intro x hx
    obtain ⟨i, j, hj, hi, h1, h2⟩ := (hmem x).1 hx
    rw [nodeAt, h1, wedgeRows_get hi hj]
    exact h2
  · intro row c hrow hc
    left
    obtain ⟨i, j, hi, hj, rfl⟩ := mixed_radix_exists hrow
    obtain ⟨v, hv⟩ : ∃ v, (prism nP i tris[j])[c]? = some v := ⟨_, List.getElem?_eq_getElem hc⟩
    exact ⟨((i * tris.length + j, c), v), (hmem _).2 ⟨i, j, hj, hi, rfl, hv⟩, rfl⟩

/-! ## C15 -/

/-- **C15** the three tetrahedra of a prism of `extrude_T3_TET4` fill it without overlap. -/
theorem C15_tiles_prism (K : Type) [Field K] [LinearOrder K] [IsStrictOrderedRing K] :
    Tiles K lcW6 [0, 1, 2, 3, 4, 5] pathExtrude 4 := by
  refine tiles_of_master (by decide +kernel) fun ξ hξ => ?_
  have b0 := hull_bound (⟨1, 0, 0⟩, 0) (by decide) hξ
  have b1 := hull_bound (⟨0, 1, 0⟩, 0) (by decide) hξ
  have b2 := hull_bound (⟨-1, -1, 0⟩, 2) (by decide) hξ
  have b3 := hull_bound (⟨0, 0, 1⟩, 2) (by decide) hξ
  have b4 := hull_bound (⟨0, 0, -1⟩, 2) (by decide) hξ
  norm_num at b0 b1 b2 b3 b4
  rcases le_total 0 (2 * ξ.y - 1 - ξ.z : K) with h | h
  · exact ⟨[0, 1, 2, 5], by decide, hull_nil4 _ _ _ _ ((-1) * ξ.x + (-1) * ξ.y + (1)) ((1) * ξ.x) ((1) * ξ.y + (-1/2) * ξ.z + (-1/2)) ((1/2) * ξ.z + (1/2))
      (by linarith) (by linarith) (by linarith) (by linarith) (by ring) ξ
      (by simp [half, lcW6] <;> linarith) (by simp [half, lcW6] <;> linarith) (by simp [half, lcW6] <;> linarith)⟩
  · rcases le_total 0 (2 * ξ.x + 2 * ξ.y - 1 - ξ.z : K) with h | h
    · exact ⟨[0, 1, 5, 4], by decide, hull_nil4 _ _ _ _ ((-1) * ξ.x + (-1) * ξ.y + (1)) ((1) * ξ.x + (1) * ξ.y + (-1/2) * ξ.z + (-1/2)) ((1) * ξ.y) ((-1) * ξ.y + (1/2) * ξ.z + (1/2))
        (by linarith) (by linarith) (by linarith) (by linarith) (by ring) ξ
        (by simp [half, lcW6] <;> linarith) (by simp [half, lcW6] <;> linarith) (by simp [half, lcW6] <;> linarith)⟩
    · exact ⟨[0, 4, 5, 3], by decide, hull_nil4 _ _ _ _ ((-1/2) * ξ.z + (1/2)) ((1) * ξ.x) ((1) * ξ.y) ((-1) * ξ.x + (-1) * ξ.y + (1/2) * ξ.z + (1/2))
        (by linarith) (by linarith) (by linarith) (by linarith) (by ring) ξ
        (by simp [half, lcW6] <;> linarith) (by simp [half, lcW6] <;> linarith) (by simp [half, lcW6] <;> linarith)⟩


section
variable {K : Type} [Field K] [LinearOrder K] [IsStrictOrderedRing K]

/-- What extrusion promises about points: `zres + 1` layers of the given points, evenly spaced. -/
structure Layers (points : List (K × K)) (h : K) (zres : Nat) (C : List (List K)) : Prop where
  length : C.length = points.length * (zres + 1)
  get : ∀ (i p : Nat) (q : K × K), i ≤ zres → points[p]? = some q →
    C[layerNode points.length i p]? = some [q.1, q.2, h * (i : Nat) / (zres : Nat)]

theorem layers_coordRows (points : List (K × K)) (h : K) (zres : Nat) : Layers points h zres (coordRows points h zres) := by
  refine ⟨coordRows_length .., ?_⟩
  intro i p q hi hp
  obtain ⟨hpl, rfl⟩ := List.getElem?_eq_some_iff.1 hp
  exact coordRows_get hi hpl

theorem pt3_of_layers {points : List (K × K)} {h : K} {zres : Nat} {C : List (List K)} (hC : Layers points h zres C)
    {i p : Nat} (hi : i ≤ zres) (hp : p < points.length) :
    pt3 C (layerNode points.length i p) =
      ⟨(points.getD p (0, 0)).1, (points.getD p (0, 0)).2, h * (i : Nat) / (zres : Nat)⟩ := by
  have := hC.get i p _ hi (List.getElem?_eq_getElem hp)
  simp [pt3, List.getD_eq_getElem?_getD, this, List.getElem?_eq_getElem hp]

/-- The affine map of a prism. -/
def prismAff (points : List (K × K)) (t : Nat × Nat × Nat) (z dz : K) : Aff K :=
  let a := points.getD t.1 (0, 0); let b := points.getD t.2.1 (0, 0); let c := points.getD t.2.2 (0, 0)
  ⟨⟨a.1, a.2, z + dz / 2⟩, ⟨b.1 - a.1, b.2 - a.2, 0⟩, ⟨c.1 - a.1, c.2 - a.2, 0⟩, ⟨0, 0, dz / 2⟩⟩

theorem prismAff_det (points : List (K × K)) (t : Nat × Nat × Nat) (z dz : K) :
    (prismAff points t z dz).det = area2D points t * (dz / 2) := by
  simp [prismAff, Aff.det, det3, area2D]; ring

theorem prism_pts {points : List (K × K)} {h : K} {zres : Nat} {C : List (List K)} (hC : Layers points h zres C)
    {i : Nat} (hi : i < zres) {t : Nat × Nat × Nat} (ht : t.1 < points.length ∧ t.2.1 < points.length ∧ t.2.2 < points.length) :
    ∀ q, q < 6 → pt3 C ((prism points.length i t).getD q 0) =
      (prismAff points t (h * (i : Nat) / (zres : Nat)) (h / (zres : Nat))).app (half (lcW6.getD q 0)) := by
  have hz : (zres : K) ≠ 0 := by
    have : zres ≠ 0 := by omega
    exact_mod_cast this
  have e0 : ∀ p, p < points.length → _ := fun p hp => pt3_of_layers hC (show i ≤ zres by omega) hp
  have e1 : ∀ p, p < points.length → _ := fun p hp => pt3_of_layers hC (show i + 1 ≤ zres by omega) hp
  intro q hq
  match q, hq with
  | 0, _ => simp [prism, e0 _ ht.1, prismAff, half, lcW6, Aff.app]; ext <;> simp
  | 1, _ => simp [prism, e0 _ ht.2.1, prismAff, half, lcW6, Aff.app]; ext <;> simp
  | 2, _ => simp [prism, e0 _ ht.2.2, prismAff, half, lcW6, Aff.app]; ext <;> simp
  | 3, _ => simp [prism, e1 _ ht.1, prismAff, half, lcW6, Aff.app]; ext <;> simp; ring
  | 4, _ => simp [prism, e1 _ ht.2.1, prismAff, half, lcW6, Aff.app]; ext <;> simp; ring
  | 5, _ => simp [prism, e1 _ ht.2.2, prismAff, half, lcW6, Aff.app]; ext <;> simp; ring

/-- The volume of the three tetrahedra of a prism, each. -/
theorem prism_tet_vol {points : List (K × K)} {h : K} {zres : Nat} {C : List (List K)} (hC : Layers points h zres C)
    {i : Nat} (hi : i < zres) {t : Nat × Nat × Nat} (ht : t.1 < points.length ∧ t.2.1 < points.length ∧ t.2.2 < points.length)
    {p : List Nat} (hp : p ∈ pathExtrude) :
    tetVol6 C (p.map fun q => (prism points.length i t).getD q 0) = area2D points t * (h / (zres : Nat)) := by
  have e := prism_pts hC hi ht
  have key : ∀ a b c d, a < 6 → b < 6 → c < 6 → d < 6 →
      vol6 (half (lcW6.getD a 0) : V3 K) (half (lcW6.getD b 0)) (half (lcW6.getD c 0)) (half (lcW6.getD d 0)) = 2 →
      tetVol6 C ([a, b, c, d].map fun q => (prism points.length i t).getD q 0) = area2D points t * (h / (zres : Nat)) := by
    intro a b c d ha hb hc hd hv
    simp only [tetVol6, List.map_cons, List.map_nil, List.getD_cons_zero, List.getD_cons_succ]
    rw [e a ha, e b hb, e c hc, e d hd, Aff.vol6_app, hv, prismAff_det]; ring
  simp only [pathExtrude, List.mem_cons, List.not_mem_nil, or_false] at hp
  rcases hp with rfl | rfl | rfl
  · exact key 0 1 2 5 (by decide) (by decide) (by decide) (by decide) (by simp [vol6, det3, half, lcW6]; norm_num)
  · exact key 0 1 5 4 (by decide) (by decide) (by decide) (by decide) (by simp [vol6, det3, half, lcW6]; norm_num)
  · exact key 0 4 5 3 (by decide) (by decide) (by decide) (by decide) (by simp [vol6, det3, half, lcW6]; norm_num)

/-- **C20** extrusion does not depend on the schedule of the parallel loops. -/
theorem C20_extrude_schedule (points : List (K × K)) (tris : List (Nat × Nat × Nat)) (h : K) (zres : Nat)
    (wc : List ((Nat × Nat) × K)) (wt ww : List ((Nat × Nat) × Nat))
    (h1 : wc.Perm (extrudeCoordWrites points h zres)) (h2 : wt.Perm (extrudeTetWrites points.length tris zres))
    (h3 : ww.Perm (extrudeWedgeWrites points.length tris zres)) :
    (extrudeCoords points zres wc, toRows (tris.length * zres * 3) 4 (runW wt fun _ => 0)) =
      extrudeT3TET4 points tris h zres ∧
    (extrudeCoords points zres wc, toRows (tris.length * zres) 6 (runW ww fun _ => 0)) =
      extrudeT3W6 points tris h zres := by
  rw [extrudeCoords_eq points h zres h1, extrudeTet_eq _ _ _ h2, extrudeWedge_eq _ _ _ h3, extrudeT3TET4, extrudeT3W6,
    extrudeCoords_eq points h zres (.refl _), extrudeTet_eq _ _ _ (.refl _), extrudeWedge_eq _ _ _ (.refl _)]
  exact ⟨rfl, rfl⟩

theorem prism_lt {nP zres i : Nat} (hi : i < zres) {t : Nat × Nat × Nat} (ht : t.1 < nP ∧ t.2.1 < nP ∧ t.2.2 < nP) :
    ∀ x ∈ prism nP i t, x < nP * (zres + 1) := by
  have key : ∀ k p, k ≤ zres → p < nP → layerNode nP k p < nP * (zres + 1) := by
    intro k p hk hp
    have : k * nP + nP ≤ nP * (zres + 1) := by
      rw [← Nat.succ_mul, Nat.mul_comm nP]; exact Nat.mul_le_mul_right _ (by omega)
    unfold layerNode; omega
  intro x hx
  simp only [prism, List.mem_cons, List.not_mem_nil, or_false] at hx
  rcases hx with rfl | rfl | rfl | rfl | rfl | rfl
  · exact key _ _ (by omega) ht.1
  · exact key _ _ (by omega) ht.2.1
  · exact key _ _ (by omega) ht.2.2
  · exact key _ _ (by omega) ht.1
  · exact key _ _ (by omega) ht.2.1
  · exact key _ _ (by omega) ht.2.2

/-- **C15** `extrude_T3_W6`: layers of points, one prism per triangle and layer, lower triangle first, with existing
nodes; every prism is the image of the master wedge under a map that keeps the orientation if the triangle is
counter-clockwise and the height is positive. -/
theorem C15_extrude_W6 (points : List (K × K)) (tris : List (Nat × Nat × Nat)) (h : K) (zres : Nat)
    (ht : TrisOK points.length tris) (C : List (List K)) (T : Topo) (hr : extrudeT3W6 points tris h zres = (C, T)) :
    Layers points h zres C ∧ T.length = tris.length * zres ∧
    (∀ (i j : Nat) t, i < zres → tris[j]? = some t → T[i * tris.length + j]? = some (prism points.length i t)) ∧
    (∀ r ∈ T, ∀ x ∈ r, x < C.length) ∧
    (∀ (i j : Nat) t, i < zres → tris[j]? = some t → ∃ A : Aff K, A.det = area2D points t * (h / (zres : Nat) / 2) ∧
      ∀ q, q < 6 → pt3 C ((prism points.length i t).getD q 0) = A.app (half (lcW6.getD q 0))) := by
  rw [extrudeT3W6, extrudeCoords_eq points h zres (.refl _), extrudeWedge_eq _ _ _ (.refl _), Prod.mk.injEq] at hr
  obtain ⟨rfl, rfl⟩ := hr
  have hL := layers_coordRows points h zres
  refine ⟨hL, wedgeRows_length .., ?_, ?_, ?_⟩
  · intro i j t hi hj
    obtain ⟨hjl, rfl⟩ := List.getElem?_eq_some_iff.1 hj
    exact wedgeRows_get hi hjl
  · intro r hr x hx
    simp only [wedgeRows, List.mem_flatMap, List.mem_range, List.mem_map] at hr
    obtain ⟨i, hi, t, htm, rfl⟩ := hr
    rw [hL.length]
    exact prism_lt hi (ht t htm) x hx
  · intro i j t hi hj
    exact ⟨_, prismAff_det .., prism_pts hL hi (ht t (List.mem_of_getElem? hj))⟩

theorem sum_flatMap' {α β : Type} (l : List α) (f : α → List β) (g : β → K) :
    ((l.flatMap f).map g).sum = (l.map fun a => ((f a).map g).sum).sum := by
  induction l with
  | nil => simp
  | cons a l ih => simp [List.sum_append, ih]

theorem sum_map_const_mul {α : Type} (l : List α) (f : α → K) (c : K) : (l.map fun a => f a * c).sum = (l.map f).sum * c := by
  induction l with
  | nil => simp
  | cons a l ih => simp [ih, add_mul]

theorem sum_map_const (n : Nat) (c : K) : ((List.range n).map fun _ => c).sum = n * c := by
  induction n with
  | zero => simp
  | succ n ih => rw [List.range_succ, List.map_append, List.sum_append, ih]; simp; ring

/-- **C15** `extrude_T3_TET4`: layers of points; three tetrahedra per prism, with existing nodes, of positive volume
when the triangle is counter-clockwise and the height positive; all volumes add up to area times height (six times
a volume is three times height times twice an area). -/
theorem C15_extrude_TET4 (points : List (K × K)) (tris : List (Nat × Nat × Nat)) (h : K) (zres : Nat)
    (ht : TrisOK points.length tris) (C : List (List K)) (T : Topo) (hr : extrudeT3TET4 points tris h zres = (C, T)) :
    Layers points h zres C ∧ T.length = tris.length * zres * 3 ∧ (∀ r ∈ T, r.length = 4) ∧
    (∀ (i j k : Nat) t, i < zres → tris[j]? = some t → k < 3 → ∃ p, pathExtrude[k]? = some p ∧
      T[(i * tris.length + j) * 3 + k]? = some (p.map fun q => (prism points.length i t).getD q 0)) ∧
    (∀ r ∈ T, ∀ x ∈ r, x < C.length) ∧
    ((∀ t ∈ tris, 0 < area2D points t) → 0 < h → ∀ r ∈ T, 0 < tetVol6 C r) ∧
    (0 < zres → (T.map (tetVol6 C)).sum = 3 * (tris.map (area2D points)).sum * h) := by
  rw [extrudeT3TET4, extrudeCoords_eq points h zres (.refl _), extrudeTet_eq _ _ _ (.refl _), Prod.mk.injEq] at hr
  obtain ⟨rfl, rfl⟩ := hr
  have hL := layers_coordRows points h zres
  have hrow : ∀ r ∈ tetRows points.length tris zres, ∃ i t p, i < zres ∧ t ∈ tris ∧ p ∈ pathExtrude ∧
      r = p.map fun q => (prism points.length i t).getD q 0 := by
    intro r hr
    simp only [tetRows, List.mem_flatMap, List.mem_range, List.mem_map] at hr
    obtain ⟨i, hi, t, htm, p, hp, rfl⟩ := hr
    exact ⟨i, t, p, hi, htm, hp, rfl⟩
  refine ⟨hL, tetRows_length .., ?_, ?_, ?_, ?_, ?_⟩
  · intro r hr
    obtain ⟨i, t, p, _, _, hp, rfl⟩ := hrow r hr
    rw [List.length_map]
    exact (pathExtrude_ok p hp).1
  · intro i j k t hi hj hk
    obtain ⟨hjl, rfl⟩ := List.getElem?_eq_some_iff.1 hj
    rw [Nat.add_mul, tetRows_get hi hjl hk]
    match k, hk with
    | 0, _ => exact ⟨_, rfl, rfl⟩
    | 1, _ => exact ⟨_, rfl, rfl⟩
    | 2, _ => exact ⟨_, rfl, rfl⟩
  · intro r hr x hx
    obtain ⟨i, t, p, hi, htm, hp, rfl⟩ := hrow r hr
    obtain ⟨q, hq, rfl⟩ := List.mem_map.1 hx
    have hq6 : q < 6 := (pathExtrude_ok p hp).2.2 q hq
    rw [hL.length]
    apply prism_lt hi (ht t htm)
    rw [getD_of_lt (show q < (prism points.length i t).length from hq6)]
    exact List.getElem_mem _
  · intro hpos hh r hr
    obtain ⟨i, t, p, hi, htm, hp, rfl⟩ := hrow r hr
    rw [prism_tet_vol hL hi (ht t htm) hp]
    have : (0 : K) < (zres : Nat) := by exact_mod_cast (by omega : 0 < zres)
    exact mul_pos (hpos t htm) (div_pos hh this)
  · intro hz
    have hz' : ((zres : Nat) : K) ≠ 0 := by exact_mod_cast (by omega : zres ≠ 0)
    have e1 : ((tetRows points.length tris zres).map (tetVol6 (coordRows points h zres))).sum =
        ((List.range zres).map fun _ => (tris.map (area2D points)).sum * (3 * (h / (zres : Nat)))).sum := by
      rw [tetRows, sum_flatMap']
      congr 1
      apply List.map_congr_left
      intro i hi
      rw [sum_flatMap', ← sum_map_const_mul]
      congr 1
      apply List.map_congr_left
      intro t htm
      have hv := fun p hp => prism_tet_vol hL (List.mem_range.1 hi) (ht t htm) (p := p) hp
      rw [List.map_map]
      have : (pathExtrude.map (tetVol6 (coordRows points h zres) ∘ fun p => p.map fun q => (prism points.length i t).getD q 0)) =
          pathExtrude.map fun _ => area2D points t * (h / (zres : Nat)) :=
        List.map_congr_left fun p hp => hv p hp
      rw [this]
      simp [pathExtrude]; ring
    rw [e1, sum_map_const]
    field_simp

/-- **C15** the tetrahedra of a prism cover it without overlap, for every non-degenerate prism of every
extrusion. -/
theorem C15_prism_filled (points : List (K × K)) (tris : List (Nat × Nat × Nat)) (h : K) (zres : Nat)
    (ht : TrisOK points.length tris) (C : List (List K)) (T : Topo) (hr : extrudeT3TET4 points tris h zres = (C, T))
    (i j : Nat) (t : Nat × Nat × Nat) (hi : i < zres) (hj : tris[j]? = some t) (ha : area2D points t ≠ 0) (hh : h ≠ 0) :
    (∀ p, Hull ((prism points.length i t).map (pt3 C)) p →
      ∃ k r, k < 3 ∧ T[(i * tris.length + j) * 3 + k]? = some r ∧ Hull (r.map (pt3 C)) p) ∧
    (∀ k k' r r', k < 3 → k' < 3 → k ≠ k' → T[(i * tris.length + j) * 3 + k]? = some r →
      T[(i * tris.length + j) * 3 + k']? = some r' →
      ∀ p, ¬ (OpenHull (r.map (pt3 C)) p ∧ OpenHull (r'.map (pt3 C)) p)) := by
  obtain ⟨hL, _, _, hrow, _⟩ := C15_extrude_TET4 points tris h zres ht C T hr
  have hpts := prism_pts hL hi (ht t (List.mem_of_getElem? hj))
  have hz : ((zres : Nat) : K) ≠ 0 := by exact_mod_cast (by omega : zres ≠ 0)
  have hdet : (prismAff points t (h * (i : Nat) / (zres : Nat)) (h / (zres : Nat))).det ≠ 0 := by
    rw [prismAff_det]
    exact mul_ne_zero ha (div_ne_zero (div_ne_zero hh hz) two_ne_zero)
  set A := prismAff points t (h * (i : Nat) / (zres : Nat)) (h / (zres : Nat)) with hA
  have hpiece : ∀ p ∈ pathExtrude, (p.map fun q => (prism points.length i t).getD q 0).map (pt3 C) = cellPts A lcW6 (p.take 4) := by
    intro p hp
    have h4 : p.take 4 = p := (pathExtrude_ok p hp).2.1
    rw [h4, cellPts, List.map_map]
    apply List.map_congr_left
    intro q hq
    exact hpts q ((pathExtrude_ok p hp).2.2 q hq)
  have hT := C15_tiles_prism K
  constructor
  · intro p hp
    have : (prism points.length i t).map (pt3 C) = cellPts A lcW6 [0, 1, 2, 3, 4, 5] := by
      simp only [cellPts, List.map_cons, List.map_nil, ← hpts 0 (by decide), ← hpts 1 (by decide), ← hpts 2 (by decide),
        ← hpts 3 (by decide), ← hpts 4 (by decide), ← hpts 5 (by decide)]
      rfl
    rw [this] at hp
    obtain ⟨s, hs, hp'⟩ := hT.cover A hdet p hp
    obtain ⟨k, hk, rfl⟩ := List.mem_iff_getElem.1 hs
    obtain ⟨s', hs', hrow'⟩ := hrow i j k t hi hj hk
    rw [List.getElem?_eq_getElem hk, Option.some.injEq] at hs'
    subst hs'
    exact ⟨k, _, hk, hrow', by rw [hpiece _ hs]; exact hp'⟩
  · intro k k' r r' hk hk' hne hr hr' p hp
    obtain ⟨s, hs, hrow1⟩ := hrow i j k t hi hj hk
    obtain ⟨s', hs', hrow2⟩ := hrow i j k' t hi hj hk'
    rw [hr, Option.some.injEq] at hrow1
    rw [hr', Option.some.injEq] at hrow2
    rw [hrow1, hrow2, hpiece s (List.mem_of_getElem? hs), hpiece s' (List.mem_of_getElem? hs')] at hp
    exact hT.disj A hdet k k' s s' hs hs' hne p hp

end

/-! ### diagonals of lateral faces -/

/-- Two nodes of one tetrahedron of the prism of triangle `j` in layer `i` are joined by an edge. -/
def PrismEdge (T : Topo) (nT i j : Nat) (m n : Nat) : Prop :=
  ∃ k r, k < 3 ∧ T[(i * nT + j) * 3 + k]? = some r ∧ m ∈ r ∧ n ∈ r

/-- The claim: on the lateral face that two triangles have in common, over the points `p` and `q`, both prisms use
the same diagonal. -/
def DiagonalsAgree (tris : List (Nat × Nat × Nat)) (nP zres : Nat) (T : Topo) : Prop :=
  ∀ (i j j' p q : Nat) (t t' : Nat × Nat × Nat), i < zres → tris[j]? = some t → tris[j']? = some t' → p ≠ q →
    p ∈ [t.1, t.2.1, t.2.2] → q ∈ [t.1, t.2.1, t.2.2] → p ∈ [t'.1, t'.2.1, t'.2.2] → q ∈ [t'.1, t'.2.1, t'.2.2] →
    PrismEdge T tris.length i j (layerNode nP i p) (layerNode nP (i + 1) q) →
    PrismEdge T tris.length i j' (layerNode nP i p) (layerNode nP (i + 1) q)

/-- **C15**, negation: two counter-clockwise triangles of a square, extruded; the prisms split their common face
along different diagonals. -/
theorem C15_diagonals_false : ¬ ∀ (points : List (Rat × Rat)) (tris : List (Nat × Nat × Nat)) (h : Rat) (zres : Nat),
    TrisOK points.length tris → (∀ t ∈ tris, 0 < area2D points t) →
    DiagonalsAgree tris points.length zres (extrudeT3TET4 points tris h zres).2 := by
  intro hall
  have h := hall [(0, 0), (1, 0), (0, 1), (1, 1)] [(0, 1, 2), (2, 1, 3)] 1 1 (by decide) (by decide +kernel)
    0 0 1 1 2 (0, 1, 2) (2, 1, 3) (by decide) rfl rfl (by decide) (by decide) (by decide) (by decide) (by decide)
    ⟨1, [0, 1, 6, 5], by decide, by decide +kernel, by decide, by decide⟩
  obtain ⟨k, r, hk, hr, h1, h2⟩ := h
  rw [extrudeT3TET4, extrudeTet_eq _ _ _ (.refl _)] at hr
  match k, hk with
  | 0, _ => simp [tetRows, pathExtrude, prism, layerNode] at hr h1 h2; subst hr; simp at h1 h2
  | 1, _ => simp [tetRows, pathExtrude, prism, layerNode] at hr h1 h2; subst hr; simp at h1 h2
  | 2, _ => simp [tetRows, pathExtrude, prism, layerNode] at hr h1 h2; subst hr; simp at h1 h2

/-- `p` is listed before `q`. -/
def Before (t : Nat × Nat × Nat) (p q : Nat) : Prop :=
  p = t.1 ∧ q = t.2.1 ∨ p = t.1 ∧ q = t.2.2 ∨ p = t.2.1 ∧ q = t.2.2

/-- **C15** the diagonals agree if triangles list the ends of common edges in the same order. Missing: other
triangulations, for which the claim fails (`C15_diagonals_false`). -/
theorem C15_diagonals_partial {K : Type} [Field K] (points : List (K × K)) (tris : List (Nat × Nat × Nat)) (h : K) (zres : Nat)
    (ht : TrisOK points.length tris)
    (hnd : ∀ t ∈ tris, t.1 ≠ t.2.1 ∧ t.1 ≠ t.2.2 ∧ t.2.1 ≠ t.2.2)
    (hord : ∀ t ∈ tris, ∀ t' ∈ tris, ∀ p q, Before t p q → ¬ Before t' q p) :
    DiagonalsAgree tris points.length zres (extrudeT3TET4 points tris h zres).2 := by
  intro i j j' p q t t' hi hj hj' hpq hp hq hp' hq' he
  have hT : (extrudeT3TET4 points tris h zres).2 = tetRows points.length tris zres := by
    rw [extrudeT3TET4, extrudeTet_eq _ _ _ (.refl _)]
  rw [hT] at he ⊢
  have hget : ∀ j t, tris[j]? = some t → ∀ k, k < 3 → (tetRows points.length tris zres)[(i * tris.length + j) * 3 + k]? =
      some ((pathExtrude.getD k []).map fun q => (prism points.length i t).getD q 0) := by
    intro j t hj k hk
    obtain ⟨hjl, rfl⟩ := List.getElem?_eq_some_iff.1 hj
    rw [Nat.add_mul]; exact tetRows_get hi hjl hk
  have hinj : ∀ a b x y, a < points.length → b < points.length →
      (layerNode points.length x a = layerNode points.length y b ↔ x = y ∧ a = b) := by
    intro a b x y ha hb
    constructor
    · exact mixed_radix_inj ha hb
    · rintro ⟨rfl, rfl⟩; rfl
  have htl := ht t (List.mem_of_getElem? hj)
  have htl' := ht t' (List.mem_of_getElem? hj')
  have lt_of : ∀ p, p ∈ [t.1, t.2.1, t.2.2] → p < points.length := by
    intro p hp; simp at hp; rcases hp with rfl | rfl | rfl
    · exact htl.1
    · exact htl.2.1
    · exact htl.2.2
  have hpl := lt_of p hp
  have hql := lt_of q hq
  -- in a prism only diagonals from an earlier to a later point occur
  have key : ∀ (j : Nat) t, tris[j]? = some t → (PrismEdge (tetRows points.length tris zres) tris.length i j
      (layerNode points.length i p) (layerNode points.length (i + 1) q) ↔ Before t p q) := by
    intro j t hj
    have htl := ht t (List.mem_of_getElem? hj)
    have hndt := hnd t (List.mem_of_getElem? hj)
    obtain ⟨a, b, c⟩ := t
    simp only at htl hndt
    constructor
    · rintro ⟨k, r, hk, hr, h1, h2⟩
      rw [hget j _ hj k hk, Option.some.injEq] at hr
      subst hr
      match k, hk with
      | 0, _ =>
        simp [pathExtrude, prism, hinj, hpl, hql, htl] at h1 h2
        simp only [Before]; omega
      | 1, _ =>
        simp [pathExtrude, prism, hinj, hpl, hql, htl] at h1 h2
        simp only [Before]; omega
      | 2, _ =>
        simp [pathExtrude, prism, hinj, hpl, hql, htl] at h1 h2
        simp only [Before]; omega
    · rintro (⟨rfl, rfl⟩ | ⟨rfl, rfl⟩ | ⟨rfl, rfl⟩)
      · exact ⟨1, _, by decide, hget j _ hj 1 (by decide), by simp [pathExtrude, prism], by simp [pathExtrude, prism]⟩
      · exact ⟨1, _, by decide, hget j _ hj 1 (by decide), by simp [pathExtrude, prism], by simp [pathExtrude, prism]⟩
      · exact ⟨1, _, by decide, hget j _ hj 1 (by decide), by simp [pathExtrude, prism], by simp [pathExtrude, prism]⟩
  rw [key j t hj] at he
  rw [key j' t' hj']
  have hno := hord t (List.mem_of_getElem? hj) t' (List.mem_of_getElem? hj') p q he
  simp only [Before, List.mem_cons, List.not_mem_nil, or_false] at hno hp' hq' ⊢
  omega

/-- **C15**, negation: `TriMesh.extrude` does not extrude the given surface: it loses the position of its plane
(a triangle in the plane `z = 5`), so no point of the surface is left in the result. -/
theorem C15_trimesh_base_false : ¬ ∀ (coords : List (V3 Rat)) (tris : List (Nat × Nat × Nat)) (h : Rat) (zres : Nat)
    (C : List (V3 Rat)) (T : Topo), 0 < zres → TrisOK coords.length tris →
    trimeshExtrude 2 coords tris h zres = some (C, T) → ∀ p ∈ coords, p ∈ C := by
  intro hall
  have h1 := hall [⟨0, 0, 5⟩, ⟨1, 0, 5⟩, ⟨0, 1, 5⟩] [(0, 1, 2)] 1 1 _ _ (by decide) (by decide) rfl ⟨0, 0, 5⟩ (by decide)
  revert h1; decide +kernel

/-- **C15** `TriMesh.extrude` keeps surfaces in the coordinate plane through the origin. Missing: other planes
(`C15_trimesh_base_false`). -/
theorem C15_trimesh_base_partial {K : Type} [Field K] [LinearOrder K] [IsStrictOrderedRing K]
    (coords : List (V3 K)) (tris : List (Nat × Nat × Nat)) (h : K) (zres : Nat)
    (hz : ∀ p ∈ coords, p.z = 0) (C : List (V3 K)) (T : Topo) (hr : trimeshExtrude 2 coords tris h zres = some (C, T)) :
    ∀ n, n < coords.length → C[n]? = coords[n]? := by
  simp only [trimeshExtrude, Option.some.injEq, Prod.mk.injEq] at hr
  obtain ⟨rfl, -⟩ := hr
  intro n hn
  rw [extrudeT3TET4, extrudeCoords_eq _ h zres (.refl _), List.getElem?_map]
  have := (layers_coordRows (coords.map fun p => (p.x, p.y)) h zres).get 0 n (coords[n].x, coords[n].y) (Nat.zero_le _)
    (by simp [List.getElem?_eq_getElem hn])
  simp only [layerNode, Nat.zero_mul, Nat.zero_add] at this
  rw [this, List.getElem?_eq_getElem hn]
  simp only [Option.map_some, Option.some.injEq]
  ext <;> simp [hz _ (List.getElem_mem hn)]

/-- The hypotheses are met by a strip of two triangles in two layers. -/
example : TrisOK 4 [(0, 1, 2), (0, 2, 3)] ∧
    (∀ t ∈ [(0, 1, 2), (0, 2, 3)], 0 < area2D (K := Rat) [(0, 0), (1, 0), (1, 1), (0, 1)] t) ∧
    (extrudeT3TET4 (K := Rat) [(0, 0), (1, 0), (1, 1), (0, 1)] [(0, 1, 2), (0, 2, 3)] 1 2).2.length = 12 := by
  refine ⟨by decide, by decide +kernel, by decide +kernel⟩

end PM
