import Verif.PropsExtrude
import Verif.PropsForm
import Verif.PropsConvexHex
import Mathlib.Algebra.BigOperators.Ring.Finset
import Mathlib.Algebra.Order.BigOperators.Group.Finset

/-!
# Property C128 (meshes made by extrusion fit together)

`extrude_T3_W6` and `extrude_T3_TET4` of `src/polymesh/extrude.py` are applied to a triangulation of the plane whose
triangles fit together; the question is whether the wedges and the tetrahedra do.
-/

set_option linter.unusedSectionVars false

namespace PM
open V3

section
variable {K : Type} [Field K] [LinearOrder K] [IsStrictOrderedRing K]

/-! ## specification -/

/-- Cells fit together: what two cells share is spanned by their common nodes. -/
def FaceToFace (pts : Nat → V3 K) (T : Topo) : Prop :=
  ∀ r ∈ T, ∀ r' ∈ T, ∀ p, Hull (r.map pts) p → Hull (r'.map pts) p → Hull ((r.filter (· ∈ r')).map pts) p

/-- The points of the plane. -/
def planePts (points : List (K × K)) (n : Nat) : V3 K := ⟨(points.getD n (0, 0)).1, (points.getD n (0, 0)).2, 0⟩

/-- A triangle as a row of nodes. -/
def triRow (t : Nat × Nat × Nat) : List Nat := [t.1, t.2.1, t.2.2]

/-! ## weights of points of a hull -/

section weights
variable {ι : Type} [DecidableEq ι]

theorem lincomb_map (pos : ι → V3 K) (G : ι → K) : ∀ L : List ι, lincomb (L.map G) (L.map pos) =
    ⟨(L.map fun q => G q * (pos q).x).sum, (L.map fun q => G q * (pos q).y).sum, (L.map fun q => G q * (pos q).z).sum⟩
  | [] => by ext <;> simp [lincomb]
  | a :: L => by
    simp only [List.map_cons, lincomb, lincomb_map pos G L]
    ext <;> simp

theorem sum_supp {L : List ι} (hn : L.Nodup) {B : Finset ι} (hB : ∀ q ∈ L, q ∈ B) {G : ι → K} (hG : ∀ q, q ∉ L → G q = 0)
    (φ : ι → K) : ∑ q ∈ B, G q * φ q = (L.map fun q => G q * φ q).sum := by
  rw [← List.sum_toFinset _ hn]
  symm
  apply Finset.sum_subset
  · intro q hq; exact hB q (List.mem_toFinset.1 hq)
  · intro q _ hq
    rw [hG q (fun h => hq (List.mem_toFinset.2 h)), zero_mul]

/-- HullWeights `G` that combine the places `pos` to `P`. -/
structure HullWeights (pos : ι → V3 K) (B : Finset ι) (L : List ι) (P : V3 K) (G : ι → K) : Prop where
  nonneg : ∀ q, 0 ≤ G q
  supp : ∀ q, q ∉ L → G q = 0
  one : ∑ q ∈ B, G q = 1
  x : ∑ q ∈ B, G q * (pos q).x = P.x
  y : ∑ q ∈ B, G q * (pos q).y = P.y
  z : ∑ q ∈ B, G q * (pos q).z = P.z

theorem hull_of_weights {pos : ι → V3 K} {L : List ι} (hn : L.Nodup) {B : Finset ι} (hB : ∀ q ∈ L, q ∈ B) {P : V3 K}
    {G : ι → K} (h : HullWeights pos B L P G) : Hull (L.map pos) P := by
  have e := sum_supp hn hB h.supp
  refine ⟨L.map G, by simp, ?_, ?_, ?_⟩
  · intro a ha
    obtain ⟨q, _, rfl⟩ := List.mem_map.1 ha
    exact h.nonneg q
  · have := e fun _ => 1
    simp only [mul_one] at this
    rw [← this, h.one]
  · rw [lincomb_map]
    ext
    · simp only; rw [← e, h.x]
    · simp only; rw [← e, h.y]
    · simp only; rw [← e, h.z]

theorem weights_of_list {pos : ι → V3 K} {L : List ι} (hn : L.Nodup) {B : Finset ι} (hB : ∀ q ∈ L, q ∈ B) {P : V3 K}
    {w : List K} (hl : w.length = L.length) (h0 : ∀ a ∈ w, 0 ≤ a) (h1 : w.sum = 1) (hP : lincomb w (L.map pos) = P) :
    ∃ G, HullWeights pos B L P G ∧ L.map G = w := by
  let G : ι → K := fun q => w.getD (L.idxOf q) 0
  have hG : L.map G = w := by
    apply List.ext_getElem (by simp [hl])
    intro i h1 h2
    have hi : i < L.length := by simpa using h1
    rw [List.getElem_map]
    show w.getD (L.idxOf L[i]) 0 = w[i]
    rw [hn.idxOf_getElem]
    simp [List.getD_eq_getElem?_getD, List.getElem?_eq_getElem h2]
  have hs : ∀ q, q ∉ L → G q = 0 := by
    intro q hq
    show w.getD (L.idxOf q) 0 = 0
    rw [List.idxOf_of_notMem hq, List.getD_eq_getElem?_getD, List.getElem?_eq_none (by omega)]
    rfl
  have e := sum_supp hn hB hs
  rw [← hG, lincomb_map] at hP
  refine ⟨G, ⟨?_, hs, ?_, ?_, ?_, ?_⟩, hG⟩
  · intro q
    by_cases hq : q ∈ L
    · exact h0 _ (hG ▸ List.mem_map_of_mem hq)
    · rw [hs q hq]
  · have := e fun _ => 1
    simp only [mul_one] at this
    rw [this, hG, h1]
  · rw [e, ← hP]
  · rw [e, ← hP]
  · rw [e, ← hP]

theorem weights_of_hull {pos : ι → V3 K} {L : List ι} (hn : L.Nodup) {B : Finset ι} (hB : ∀ q ∈ L, q ∈ B) {P : V3 K}
    (h : Hull (L.map pos) P) : ∃ G, HullWeights pos B L P G := by
  obtain ⟨w, hl, h0, h1, hP⟩ := h
  obtain ⟨G, h, _⟩ := weights_of_list hn hB (by simpa using hl) h0 h1 hP
  exact ⟨G, h⟩

theorem weights_of_openHull {pos : ι → V3 K} {L : List ι} (hn : L.Nodup) {B : Finset ι} (hB : ∀ q ∈ L, q ∈ B) {P : V3 K}
    (h : OpenHull (L.map pos) P) : ∃ G, HullWeights pos B L P G ∧ ∀ q ∈ L, 0 < G q := by
  obtain ⟨w, hl, h0, h1, hP⟩ := h
  obtain ⟨G, h, hG⟩ := weights_of_list hn hB (by simpa using hl) (fun a ha => (h0 a ha).le) h1 hP
  exact ⟨G, h, fun q hq => h0 _ (hG ▸ List.mem_map_of_mem hq)⟩

end weights

theorem hull_point {pts : List (V3 K)} {q : V3 K} (h : q ∈ pts) : Hull pts q := by
  induction pts with
  | nil => simp at h
  | cons a pts ih =>
    rcases List.mem_cons.1 h with rfl | h
    · refine ⟨1 :: List.replicate pts.length 0, by simp, ?_, by simp, ?_⟩
      · intro b hb
        rcases List.mem_cons.1 hb with rfl | hb
        · exact zero_le_one
        · exact (List.mem_replicate.1 hb).2 ▸ le_rfl
      · have : ∀ l : List (V3 K), lincomb (List.replicate l.length 0) l = 0 := by
          intro l
          induction l with
          | nil => rfl
          | cons a l ih => simp only [List.length_cons, List.replicate_succ, lincomb, ih]; ext <;> simp
        rw [lincomb, this]; ext <;> simp
    · obtain ⟨w, w1, w2, w3, w4⟩ := ih h
      refine ⟨0 :: w, by simp [w1], ?_, by simp [w3], ?_⟩
      · intro b hb
        rcases List.mem_cons.1 hb with rfl | hb
        · exact le_rfl
        · exact w2 b hb
      · rw [lincomb, w4]; ext <;> simp

/-- A hull grows with the points. -/
theorem hull_mono {S S' : List (V3 K)} (h : ∀ q ∈ S, q ∈ S') {p : V3 K} (hp : Hull S p) : Hull S' p :=
  hull_of_hull hp fun q hq => hull_point (h q hq)

/-! ## triangles -/

theorem sum_tri {t : Nat × Nat × Nat} {n : Nat} (ht : t.1 < n ∧ t.2.1 < n ∧ t.2.2 < n) (hn : (triRow t).Nodup)
    {g : Nat → K} (hg : ∀ q, q ∉ triRow t → g q = 0) (φ : Nat → K) :
    ∑ q ∈ Finset.range n, g q * φ q = g t.1 * φ t.1 + (g t.2.1 * φ t.2.1 + g t.2.2 * φ t.2.2) := by
  rw [sum_supp hn (B := Finset.range n) (by simp [triRow, ht.1, ht.2.1, ht.2.2]) hg φ]
  simp [triRow]

theorem nodup_of_area {points : List (K × K)} {t : Nat × Nat × Nat} (h : area2D points t ≠ 0) : (triRow t).Nodup := by
  have h1 : t.1 ≠ t.2.1 := by rintro e; apply h; simp [area2D, e]
  have h2 : t.1 ≠ t.2.2 := by rintro e; apply h; simp [area2D, e]
  have h3 : t.2.1 ≠ t.2.2 := by rintro e; apply h; simp [area2D, e]
  simp [triRow, h1, h2, h3]

/-- HullWeights at the corners of a triangle with area are determined by the point. -/
theorem tri_unique {points : List (K × K)} {t : Nat × Nat × Nat} (h : area2D points t ≠ 0)
    (ht : t.1 < points.length ∧ t.2.1 < points.length ∧ t.2.2 < points.length) {P P' : V3 K} {g g' : Nat → K}
    {L L' : List Nat} (hL : ∀ q ∈ L, q ∈ triRow t) (hL' : ∀ q ∈ L', q ∈ triRow t)
    (hg : HullWeights (planePts points) (Finset.range points.length) L P g)
    (hg' : HullWeights (planePts points) (Finset.range points.length) L' P' g') (ex : P.x = P'.x) (ey : P.y = P'.y) : g = g' := by
  have hn := nodup_of_area h
  have s : ∀ q, q ∉ triRow t → g q = 0 := fun q hq => hg.supp q fun h => hq (hL q h)
  have s' : ∀ q, q ∉ triRow t → g' q = 0 := fun q hq => hg'.supp q fun h => hq (hL' q h)
  have e0 := sum_tri ht hn s fun _ => 1
  have e0' := sum_tri ht hn s' fun _ => 1
  have e1 := sum_tri ht hn s fun q => (planePts points q).x
  have e1' := sum_tri ht hn s' fun q => (planePts points q).x
  have e2 := sum_tri ht hn s fun q => (planePts points q).y
  have e2' := sum_tri ht hn s' fun q => (planePts points q).y
  simp only [mul_one] at e0 e0'
  rw [hg.one] at e0
  rw [hg'.one] at e0'
  rw [hg.x] at e1
  rw [hg'.x] at e1'
  rw [hg.y] at e2
  rw [hg'.y] at e2'
  simp only [planePts] at e1 e1' e2 e2'
  simp only [area2D] at h
  generalize points.getD t.1 (0, 0) = a at *
  generalize points.getD t.2.1 (0, 0) = b at *
  generalize points.getD t.2.2 (0, 0) = c at *
  have f0 := e0.symm.trans e0'
  have f1 := (e1.symm.trans ex).trans e1'
  have f2 := (e2.symm.trans ey).trans e2'
  have hb : (g t.2.1 - g' t.2.1) * ((b.1 - a.1) * (c.2 - a.2) - (c.1 - a.1) * (b.2 - a.2)) = 0 := by
    linear_combination (c.2 - a.2) * (f1 - a.1 * f0) - (c.1 - a.1) * (f2 - a.2 * f0)
  have hc : (g t.2.2 - g' t.2.2) * ((b.1 - a.1) * (c.2 - a.2) - (c.1 - a.1) * (b.2 - a.2)) = 0 := by
    linear_combination (b.1 - a.1) * (f2 - a.2 * f0) - (b.2 - a.2) * (f1 - a.1 * f0)
  have hb := sub_eq_zero.1 ((mul_eq_zero.1 hb).resolve_right h)
  have hc := sub_eq_zero.1 ((mul_eq_zero.1 hc).resolve_right h)
  have ha : g t.1 = g' t.1 := by linear_combination f0 - hb - hc
  funext q
  by_cases hq : q ∈ triRow t
  · simp only [triRow, List.mem_cons, List.not_mem_nil, or_false] at hq
    rcases hq with rfl | rfl | rfl
    · exact ha
    · exact hb
    · exact hc
  · rw [s q hq, s' q hq]

/-- In a triangulation that fits, a point of two triangles has the same weights in both. -/
theorem tri_common {points : List (K × K)} {tris : List (Nat × Nat × Nat)} (hok : TrisOK points.length tris)
    (ha : ∀ t ∈ tris, area2D points t ≠ 0) (hf : FaceToFace (planePts points) (tris.map triRow))
    {t t' : Nat × Nat × Nat} (ht : t ∈ tris) (ht' : t' ∈ tris) {P : V3 K} {g g' : Nat → K}
    (hg : HullWeights (planePts points) (Finset.range points.length) (triRow t) P g)
    (hg' : HullWeights (planePts points) (Finset.range points.length) (triRow t') P g') : g = g' := by
  have hm : ∀ t ∈ tris, ∀ q ∈ triRow t, q ∈ Finset.range points.length := by
    intro t ht q hq
    have := hok t ht
    simp only [triRow, List.mem_cons, List.not_mem_nil, or_false] at hq
    rw [Finset.mem_range]
    rcases hq with rfl | rfl | rfl
    · exact this.1
    · exact this.2.1
    · exact this.2.2
  have n := nodup_of_area (ha t ht)
  have n' := nodup_of_area (ha t' ht')
  have h := hf _ (List.mem_map_of_mem ht) _ (List.mem_map_of_mem ht') P (hull_of_weights n (hm t ht) hg)
    (hull_of_weights n' (hm t' ht') hg')
  obtain ⟨g2, h2⟩ := weights_of_hull (n.filter _) (B := Finset.range points.length)
    (fun q hq => hm t ht q (List.mem_filter.1 hq).1) h
  rw [tri_unique (ha t ht) (hok t ht) (fun _ h => h) (fun q hq => (List.mem_filter.1 hq).1) hg h2 rfl rfl]
  exact tri_unique (ha t' ht') (hok t' ht') (fun q hq => by simpa using (List.mem_filter.1 hq).2) (fun _ h => h) h2 hg' rfl rfl

/-! ## cells of a layer -/

/-- Place of the node of a layer above a point, with the heights `ζ` of the layers. -/
def layerPos (points : List (K × K)) (ζ : Nat → K) (q : Nat × Nat) : V3 K :=
  ⟨(planePts points q.2).x, (planePts points q.2).y, ζ q.1⟩

/-- All nodes, as pairs of a layer and a point. -/
def layerBox (nP zres : Nat) : Finset (Nat × Nat) := Finset.range (zres + 1) ×ˢ Finset.range nP

/-- A cell between the layers `i` and `i + 1` over the triangle `t`. -/
structure LayerCell (i : Nat) (t : Nat × Nat × Nat) (L : List (Nat × Nat)) : Prop where
  nodup : L.Nodup
  layer : ∀ q ∈ L, q.1 = i ∨ q.1 = i + 1
  tri : ∀ q ∈ L, q.2 ∈ triRow t

/-- HullWeights summed over the layers. -/
def columnW (zres : Nat) (G : Nat × Nat → K) (p : Nat) : K := ∑ l ∈ Finset.range (zres + 1), G (l, p)

theorem triRow_lt {n : Nat} {t : Nat × Nat × Nat} (ht : t.1 < n ∧ t.2.1 < n ∧ t.2.2 < n) : ∀ q ∈ triRow t, q < n := by
  simp [triRow, ht.1, ht.2.1, ht.2.2]

theorem LayerCell.inBox {i zres n : Nat} {t : Nat × Nat × Nat} {L : List (Nat × Nat)} (h : LayerCell i t L) (hi : i < zres)
    (ht : t.1 < n ∧ t.2.1 < n ∧ t.2.2 < n) : ∀ q ∈ L, q ∈ layerBox n zres := by
  intro q hq
  have h1 := h.layer q hq
  have h2 := triRow_lt ht q.2 (h.tri q hq)
  simp only [PM.layerBox, Finset.mem_product, Finset.mem_range]
  omega

theorem column_between {i zres : Nat} {t : Nat × Nat × Nat} {L : List (Nat × Nat)} (h : LayerCell i t L) (hi : i < zres)
    {G : Nat × Nat → K} (hG : ∀ q, q ∉ L → G q = 0) (p : Nat) : columnW zres G p = G (i, p) + G (i + 1, p) := by
  apply Finset.sum_eq_add i (i + 1) (by omega)
  · intro c _ hc
    apply hG
    intro hq
    rcases h.layer _ hq with h | h
    · exact hc.1 h
    · exact hc.2 h
  · intro hh; simp at hh; omega
  · intro hh; simp at hh; omega

theorem sum_column {n zres : Nat} (G : Nat × Nat → K) (φ : Nat → K) :
    ∑ p ∈ Finset.range n, columnW zres G p * φ p = ∑ q ∈ layerBox n zres, G q * φ q.2 := by
  rw [layerBox, Finset.sum_product_right]
  apply Finset.sum_congr rfl
  intro p _
  rw [columnW, Finset.sum_mul]

theorem column_weights {points : List (K × K)} {ζ : Nat → K} {i zres : Nat} {t : Nat × Nat × Nat} {L : List (Nat × Nat)}
    (h : LayerCell i t L) (hi : i < zres) {P : V3 K} {G : Nat × Nat → K}
    (hG : HullWeights (layerPos points ζ) (layerBox points.length zres) L P G) :
    HullWeights (planePts points) (Finset.range points.length) (triRow t) ⟨P.x, P.y, 0⟩ (columnW zres G) := by
  refine ⟨?_, ?_, ?_, ?_, ?_, ?_⟩
  · intro p
    rw [column_between h hi hG.supp]
    exact add_nonneg (hG.nonneg _) (hG.nonneg _)
  · intro p hp
    rw [column_between h hi hG.supp, hG.supp _ (fun hq => hp (h.tri _ hq)), hG.supp _ (fun hq => hp (h.tri _ hq)), add_zero]
  · have := sum_column (n := points.length) (zres := zres) G fun _ => 1
    simp only [mul_one] at this
    rw [this, hG.one]
  · rw [sum_column, ← hG.x]; rfl
  · rw [sum_column, ← hG.y]; rfl
  · simp [planePts]

/-- Height of a point of a cell, by the weights of the two layers. -/
theorem height_between {points : List (K × K)} {ζ : Nat → K} {i zres : Nat} {t : Nat × Nat × Nat} {L : List (Nat × Nat)}
    (h : LayerCell i t L) (hi : i < zres) {P : V3 K} {G : Nat × Nat → K}
    (hG : HullWeights (layerPos points ζ) (layerBox points.length zres) L P G) :
    ∑ p ∈ Finset.range points.length, G (i, p) + ∑ p ∈ Finset.range points.length, G (i + 1, p) = 1 ∧
    ζ i * ∑ p ∈ Finset.range points.length, G (i, p) + ζ (i + 1) * ∑ p ∈ Finset.range points.length, G (i + 1, p) = P.z := by
  have key : ∀ φ : Nat → K, ∑ q ∈ layerBox points.length zres, G q * φ q.1 =
      φ i * ∑ p ∈ Finset.range points.length, G (i, p) + φ (i + 1) * ∑ p ∈ Finset.range points.length, G (i + 1, p) := by
    intro φ
    rw [layerBox, Finset.sum_product]
    simp only [← Finset.sum_mul]
    rw [Finset.sum_eq_add i (i + 1) (by omega)]
    · ring
    · intro c _ hc
      rw [Finset.sum_eq_zero, zero_mul]
      intro p _
      apply hG.supp
      intro hq
      rcases h.layer _ hq with h | h
      · exact hc.1 h
      · exact hc.2 h
    · intro hh; simp at hh; omega
    · intro hh; simp at hh; omega
  constructor
  · have := key fun _ => 1
    simp only [mul_one, one_mul] at this
    rw [← this, hG.one]
  · rw [← key, ← hG.z]; rfl

/-- The common assumptions: the triangles refer to points, have area and fit together. -/
structure PlaneFit (points : List (K × K)) (tris : List (Nat × Nat × Nat)) : Prop where
  ok : TrisOK points.length tris
  area : ∀ t ∈ tris, area2D points t ≠ 0
  fit : FaceToFace (planePts points) (tris.map triRow)

theorem columns_eq {points : List (K × K)} {tris : List (Nat × Nat × Nat)} (hp : PlaneFit points tris) {ζ : Nat → K}
    {i i' zres : Nat} {t t' : Nat × Nat × Nat} (ht : t ∈ tris) (ht' : t' ∈ tris) {L L' : List (Nat × Nat)}
    (h : LayerCell i t L) (h' : LayerCell i' t' L') (hi : i < zres) (hi' : i' < zres) {P : V3 K} {G G' : Nat × Nat → K}
    (hG : HullWeights (layerPos points ζ) (layerBox points.length zres) L P G)
    (hG' : HullWeights (layerPos points ζ) (layerBox points.length zres) L' P G') (p : Nat) :
    G (i, p) + G (i + 1, p) = G' (i', p) + G' (i' + 1, p) := by
  have := tri_common hp.ok hp.area hp.fit ht ht' (column_weights h hi hG) (column_weights h' hi' hG')
  rw [← column_between h hi hG.supp, ← column_between h' hi' hG'.supp, this]

/-- Cells of different layers only meet at the layer between them, where weights are determined. -/
theorem differ_layers {points : List (K × K)} {tris : List (Nat × Nat × Nat)} (hp : PlaneFit points tris) {ζ : Nat → K}
    (hζ : StrictMono ζ) {i i' zres : Nat} {t t' : Nat × Nat × Nat} (ht : t ∈ tris) (ht' : t' ∈ tris)
    {L L' : List (Nat × Nat)} (h : LayerCell i t L) (h' : LayerCell i' t' L') (hi' : i' < zres) (hlt : i < i')
    {P : V3 K} {G G' : Nat × Nat → K}
    (hG : HullWeights (layerPos points ζ) (layerBox points.length zres) L P G)
    (hG' : HullWeights (layerPos points ζ) (layerBox points.length zres) L' P G') : G = G' ∧ (∀ p, G (i, p) = 0) := by
  have hi : i < zres := by omega
  obtain ⟨a1, a2⟩ := height_between h hi hG
  obtain ⟨b1, b2⟩ := height_between h' hi' hG'
  have n1 : 0 ≤ ∑ p ∈ Finset.range points.length, G (i, p) := Finset.sum_nonneg fun p _ => hG.nonneg _
  have n2 : 0 ≤ ∑ p ∈ Finset.range points.length, G' (i' + 1, p) := Finset.sum_nonneg fun p _ => hG'.nonneg _
  have z1 : ζ i < ζ (i + 1) := hζ (by omega)
  have z2 : ζ i' < ζ (i' + 1) := hζ (by omega)
  have z3 : ζ (i + 1) ≤ ζ i' := hζ.monotone hlt
  generalize hA : ∑ p ∈ Finset.range points.length, G (i, p) = A at *
  generalize hD : ∑ p ∈ Finset.range points.length, G' (i' + 1, p) = D at *
  have e1 : P.z = ζ (i + 1) - (ζ (i + 1) - ζ i) * A := by rw [← a2]; linear_combination ζ (i + 1) * a1
  have e2 : P.z = ζ i' + (ζ (i' + 1) - ζ i') * D := by rw [← b2]; linear_combination ζ i' * b1
  have f1 := mul_nonneg (sub_nonneg.2 z1.le) n1
  have f2 := mul_nonneg (sub_nonneg.2 z2.le) n2
  have zeq : ζ (i + 1) = ζ i' := by linarith
  obtain rfl : i + 1 = i' := hζ.injective zeq
  have hA0 : A = 0 := by
    rcases mul_eq_zero.1 (by linarith : (ζ (i + 1) - ζ i) * A = 0) with h | h
    · linarith
    · exact h
  have hD0 : D = 0 := by
    rcases mul_eq_zero.1 (by linarith : (ζ (i + 1 + 1) - ζ (i + 1)) * D = 0) with h | h
    · linarith
    · exact h
  have g1 : ∀ p, G (i, p) = 0 := by
    intro p
    by_cases hpn : p < points.length
    · rw [hA0] at hA
      exact (Finset.sum_eq_zero_iff_of_nonneg fun p _ => hG.nonneg _).1 hA p (Finset.mem_range.2 hpn)
    · exact hG.supp _ fun hq => hpn (triRow_lt (hp.ok t ht) _ (h.tri _ hq))
  have g2 : ∀ p, G' (i + 1 + 1, p) = 0 := by
    intro p
    by_cases hpn : p < points.length
    · rw [hD0] at hD
      exact (Finset.sum_eq_zero_iff_of_nonneg fun p _ => hG'.nonneg _).1 hD p (Finset.mem_range.2 hpn)
    · exact hG'.supp _ fun hq => hpn (triRow_lt (hp.ok t' ht') _ (h'.tri _ hq))
  refine ⟨?_, g1⟩
  funext ⟨l, p⟩
  have hc := columns_eq hp ht ht' h h' hi hi' hG hG' p
  rw [g1, g2, zero_add, add_zero] at hc
  have o : ∀ l, l ≠ i → l ≠ i + 1 → G (l, p) = 0 := by
    intro l h1 h2
    apply hG.supp
    intro hq
    rcases h.layer _ hq with h | h
    · exact h1 h
    · exact h2 h
  have o' : ∀ l, l ≠ i + 1 → l ≠ i + 1 + 1 → G' (l, p) = 0 := by
    intro l h1 h2
    apply hG'.supp
    intro hq
    rcases h'.layer _ hq with h | h
    · exact h1 h
    · exact h2 h
  by_cases l1 : l = i + 1
  · rw [l1]; exact hc
  · have : G (l, p) = 0 := by
      by_cases l2 : l = i
      · rw [l2]; exact g1 p
      · exact o l l2 l1
    rw [this]
    by_cases l2 : l = i + 1 + 1
    · rw [l2]; exact (g2 p).symm
    · exact (o' l l1 l2).symm

/-- Only nodes of the upper layer that come before a node of the lower one are missing. -/
def Stair (i : Nat) (t : Nat × Nat × Nat) (L : List (Nat × Nat)) : Prop :=
  ∀ p q, Before t p q → (i + 1, p) ∈ L → (i, q) ∉ L

theorem before_total {t : Nat × Nat × Nat} {p q : Nat} (hp : p ∈ triRow t) (hq : q ∈ triRow t) (h : p ≠ q) :
    Before t p q ∨ Before t q p := by
  simp only [triRow, List.mem_cons, List.not_mem_nil, or_false] at hp hq
  simp only [Before]
  omega

/-- In one layer the weights of cells with the order of the triangles are determined by the point. -/
theorem same_layer {points : List (K × K)} {tris : List (Nat × Nat × Nat)} (hp : PlaneFit points tris) {ζ : Nat → K}
    (hζ : StrictMono ζ) {i zres : Nat} {t t' : Nat × Nat × Nat} (ht : t ∈ tris) (ht' : t' ∈ tris)
    (hord : ∀ p q, Before t p q → ¬ Before t' q p)
    {L L' : List (Nat × Nat)} (h : LayerCell i t L) (h' : LayerCell i t' L') (hs : Stair i t L) (hs' : Stair i t' L') (hi : i < zres)
    {P : V3 K} {G G' : Nat × Nat → K}
    (hG : HullWeights (layerPos points ζ) (layerBox points.length zres) L P G)
    (hG' : HullWeights (layerPos points ζ) (layerBox points.length zres) L' P G') : G = G' := by
  obtain ⟨a1, a2⟩ := height_between h hi hG
  obtain ⟨b1, b2⟩ := height_between h' hi hG'
  have hc := columns_eq hp ht ht' h h' hi hi hG hG'
  have z1 : ζ i < ζ (i + 1) := hζ (by omega)
  have hsum : ∑ p ∈ Finset.range points.length, G (i + 1, p) = ∑ p ∈ Finset.range points.length, G' (i + 1, p) := by
    have : (ζ (i + 1) - ζ i) * ∑ p ∈ Finset.range points.length, G (i + 1, p) =
        (ζ (i + 1) - ζ i) * ∑ p ∈ Finset.range points.length, G' (i + 1, p) := by
      linear_combination a2 - b2 - ζ i * a1 + ζ i * b1
    exact mul_left_cancel₀ (sub_pos.2 z1).ne' this
  have mem : ∀ l p, 0 < G (l, p) → (l, p) ∈ L := by
    intro l p h0
    by_contra hq
    rw [hG.supp _ hq] at h0
    exact lt_irrefl _ h0
  have mem' : ∀ l p, 0 < G' (l, p) → (l, p) ∈ L' := by
    intro l p h0
    by_contra hq
    rw [hG'.supp _ hq] at h0
    exact lt_irrefl _ h0
  -- one weight above and one below cannot both change
  have no : ∀ p q, G (i + 1, p) < G' (i + 1, p) → ¬ G' (i + 1, q) < G (i + 1, q) := by
    intro p q h1 h2
    have cp := hc p
    have cq := hc q
    have up' : 0 < G' (i + 1, p) := lt_of_le_of_lt (hG.nonneg _) h1
    have uq : 0 < G (i + 1, q) := lt_of_le_of_lt (hG'.nonneg _) h2
    have lp : 0 < G (i, p) := by have := hG'.nonneg (i, p); linarith
    have lq' : 0 < G' (i, q) := by have := hG.nonneg (i, q); linarith
    have hne : p ≠ q := by rintro rfl; exact lt_asymm h1 h2
    have tp := h.tri _ (mem _ _ lp)
    have tq := h.tri _ (mem _ _ uq)
    have tp' := h'.tri _ (mem' _ _ up')
    have tq' := h'.tri _ (mem' _ _ lq')
    rcases before_total tp tq hne with hb | hb
    · have hb' := (before_total tp' tq' hne).resolve_right (hord _ _ hb)
      exact hs' p q hb' (mem' _ _ up') (mem' _ _ lq')
    · exact hs q p hb (mem _ _ uq) (mem _ _ lp)
  have up : ∀ p, G (i + 1, p) = G' (i + 1, p) := by
    have out : ∀ p, ¬ p < points.length → G (i + 1, p) = G' (i + 1, p) := by
      intro p hpn
      rw [hG.supp _ fun hq => hpn (triRow_lt (hp.ok t ht) _ (h.tri _ hq)),
        hG'.supp _ fun hq => hpn (triRow_lt (hp.ok t' ht') _ (h'.tri _ hq))]
    by_cases hex : ∃ p, G (i + 1, p) < G' (i + 1, p)
    · obtain ⟨p, h1⟩ := hex
      have hle : ∀ q ∈ Finset.range points.length, G (i + 1, q) ≤ G' (i + 1, q) := fun q _ => not_lt.1 (no p q h1)
      have := (Finset.sum_eq_sum_iff_of_le hle).1 hsum
      intro q
      by_cases hq : q < points.length
      · exact this q (Finset.mem_range.2 hq)
      · exact out q hq
    · push Not at hex
      have := (Finset.sum_eq_sum_iff_of_le fun q (_ : q ∈ Finset.range points.length) => hex q).1 hsum.symm
      intro q
      by_cases hq : q < points.length
      · exact (this q (Finset.mem_range.2 hq)).symm
      · exact out q hq
  funext ⟨l, p⟩
  by_cases l1 : l = i + 1
  · rw [l1]; exact up p
  · by_cases l2 : l = i
    · rw [l2]; have := hc p; rw [up p] at this; exact add_right_cancel this
    · rw [hG.supp _, hG'.supp _]
      · intro hq; rcases h'.layer _ hq with h | h
        · exact l2 h
        · exact l1 h
      · intro hq; rcases h.layer _ hq with h | h
        · exact l2 h
        · exact l1 h

/-! ## points over a point of the plane -/

/-- The weights of a point of the plane, spread over two layers. -/
def liftW (i : Nat) (s : K) (g : Nat → K) (q : Nat × Nat) : K :=
  if q.1 = i then (1 - s) * g q.2 else if q.1 = i + 1 then s * g q.2 else 0

theorem lift_weights {points : List (K × K)} {ζ : Nat → K} {i zres : Nat} (hi : i < zres) {s : K} (s0 : 0 ≤ s) (s1 : s ≤ 1)
    {S : List Nat} {Q : V3 K} {g : Nat → K} (hg : HullWeights (planePts points) (Finset.range points.length) S Q g)
    {L : List (Nat × Nat)} (hL : ∀ p, g p ≠ 0 → (i, p) ∈ L ∧ (i + 1, p) ∈ L) :
    HullWeights (layerPos points ζ) (layerBox points.length zres) L ⟨Q.x, Q.y, (1 - s) * ζ i + s * ζ (i + 1)⟩ (liftW i s g) := by
  have key : ∀ φ : Nat × Nat → K, ∑ q ∈ layerBox points.length zres, liftW i s g q * φ q =
      (1 - s) * ∑ p ∈ Finset.range points.length, g p * φ (i, p) + s * ∑ p ∈ Finset.range points.length, g p * φ (i + 1, p) := by
    intro φ
    rw [layerBox, Finset.sum_product, Finset.sum_eq_add i (i + 1) (by omega)]
    · rw [Finset.mul_sum, Finset.mul_sum]
      congr 1
      · apply Finset.sum_congr rfl; intro p _; simp [liftW]; ring
      · apply Finset.sum_congr rfl; intro p _; simp [liftW]; ring
    · intro c _ hc
      apply Finset.sum_eq_zero
      intro p _
      simp [liftW, hc.1, hc.2]
    · intro hh; simp at hh; omega
    · intro hh; simp at hh; omega
  refine ⟨?_, ?_, ?_, ?_, ?_, ?_⟩
  · intro q
    unfold liftW
    split
    · exact mul_nonneg (by linarith) (hg.nonneg _)
    · split
      · exact mul_nonneg s0 (hg.nonneg _)
      · exact le_rfl
  · rintro ⟨l, p⟩ hq
    unfold liftW
    split
    · rename_i h
      simp only at h
      subst h
      rw [of_not_not fun h => hq (hL p h).1, mul_zero]
    · split
      · rename_i _ h
        simp only at h
        subst h
        rw [of_not_not fun h => hq (hL p h).2, mul_zero]
      · rfl
  · have := key fun _ => 1
    simp only [mul_one] at this
    rw [this, hg.one]; ring
  · rw [key]; simp only [layerPos]; rw [hg.x]; ring
  · rw [key]; simp only [layerPos]; rw [hg.y]; ring
  · rw [key]; simp only [layerPos, ← Finset.sum_mul]; rw [hg.one]; ring

/-! ## rows of the extruded meshes -/

/-- A wedge as pairs of layers and points. -/
def wedgePairs (i : Nat) (t : Nat × Nat × Nat) : List (Nat × Nat) :=
  [(i, t.1), (i, t.2.1), (i, t.2.2), (i + 1, t.1), (i + 1, t.2.1), (i + 1, t.2.2)]

/-- Number of the node of a layer. -/
def nodeOf (nP : Nat) (q : Nat × Nat) : Nat := layerNode nP q.1 q.2

/-- Height of a layer. -/
def layerZ (h : K) (zres : Nat) (l : Nat) : K := h * (l : Nat) / (zres : Nat)

theorem zeta_mono {h : K} (hh : 0 < h) {zres : Nat} (hz : 0 < zres) : StrictMono (layerZ h zres) := by
  intro a b hab
  have hz' : (0 : K) < (zres : Nat) := by exact_mod_cast hz
  have hab' : ((a : Nat) : K) < (b : Nat) := by exact_mod_cast hab
  unfold layerZ
  exact (div_lt_div_iff_of_pos_right hz').2 (mul_lt_mul_of_pos_left hab' hh)

theorem wedge_between {i : Nat} {t : Nat × Nat × Nat} (hn : (triRow t).Nodup) : LayerCell i t (wedgePairs i t) := by
  simp only [triRow, List.nodup_cons, List.mem_cons, List.not_mem_nil, or_false, not_or] at hn
  refine ⟨?_, ?_, ?_⟩
  · simp only [wedgePairs, List.nodup_cons, List.mem_cons, List.not_mem_nil, or_false, not_or, Prod.mk.injEq]
    simp
    omega
  · intro q hq
    simp only [wedgePairs, List.mem_cons, List.not_mem_nil, or_false] at hq
    rcases hq with rfl | rfl | rfl | rfl | rfl | rfl <;> simp
  · intro q hq
    simp only [wedgePairs, List.mem_cons, List.not_mem_nil, or_false] at hq
    rcases hq with rfl | rfl | rfl | rfl | rfl | rfl <;> simp [triRow]

theorem mem_wedgePairs {i : Nat} {t : Nat × Nat × Nat} {p : Nat} (h : p ∈ triRow t) :
    (i, p) ∈ wedgePairs i t ∧ (i + 1, p) ∈ wedgePairs i t := by
  simp only [triRow, List.mem_cons, List.not_mem_nil, or_false] at h
  rcases h with rfl | rfl | rfl <;> simp [wedgePairs]

/-- The pairs of a tetrahedron. -/
def tetPairs (i : Nat) (t : Nat × Nat × Nat) (path : List Nat) : List (Nat × Nat) :=
  path.map fun k => (wedgePairs i t).getD k (0, 0)

theorem tet_between {i : Nat} {t : Nat × Nat × Nat} (hn : (triRow t).Nodup) {path : List Nat} (hp : path ∈ pathExtrude) :
    LayerCell i t (tetPairs i t path) ∧ Stair i t (tetPairs i t path) := by
  simp only [triRow, List.nodup_cons, List.mem_cons, List.not_mem_nil, or_false, not_or] at hn
  obtain ⟨⟨h1, h2⟩, h3, -⟩ := hn
  simp only [pathExtrude, List.mem_cons, List.not_mem_nil, or_false] at hp
  refine ⟨⟨?_, ?_, ?_⟩, ?_⟩
  · rcases hp with rfl | rfl | rfl <;> simp [tetPairs, wedgePairs] <;> omega
  · rcases hp with rfl | rfl | rfl <;> simp [tetPairs, wedgePairs]
  · rcases hp with rfl | rfl | rfl <;> simp [tetPairs, wedgePairs, triRow]
  · intro p q hb
    simp only [Before] at hb
    rcases hp with rfl | rfl | rfl <;> simp [tetPairs, wedgePairs] <;> omega

theorem node_inj {n : Nat} {q q' : Nat × Nat} (h : q.2 < n) (h' : q'.2 < n) (e : nodeOf n q = nodeOf n q') : q = q' := by
  obtain ⟨a, b⟩ := q
  obtain ⟨a', b'⟩ := q'
  simp only [nodeOf, layerNode] at *
  obtain ⟨h1, h2⟩ := mixed_radix_inj h h' e
  rw [h1, h2]

theorem map_layers {points : List (K × K)} {h : K} {zres : Nat} {C : List (List K)} (hC : Layers points h zres C)
    {L : List (Nat × Nat)} (hL : ∀ q ∈ L, q ∈ layerBox points.length zres) :
    (L.map (nodeOf points.length)).map (pt3 C) = L.map (layerPos points (layerZ h zres)) := by
  rw [List.map_map]
  apply List.map_congr_left
  intro q hq
  have := hL q hq
  simp only [layerBox, Finset.mem_product, Finset.mem_range] at this
  simp only [Function.comp_def, nodeOf]
  rw [pt3_of_layers hC (by omega) this.2]
  rfl

theorem filter_layers {n zres : Nat} {L L' : List (Nat × Nat)} (hL : ∀ q ∈ L, q ∈ layerBox n zres)
    (hL' : ∀ q ∈ L', q ∈ layerBox n zres) :
    (L.map (nodeOf n)).filter (· ∈ L'.map (nodeOf n)) = (L.filter (· ∈ L')).map (nodeOf n) := by
  rw [List.filter_map]
  congr 1
  apply List.filter_congr
  intro q hq
  have h1 := hL q hq
  simp only [layerBox, Finset.mem_product, Finset.mem_range] at h1
  have : q ∈ L' ↔ nodeOf n q ∈ L'.map (nodeOf n) := by
    constructor
    · exact fun h => List.mem_map_of_mem h
    · intro h
      obtain ⟨q', hq', e⟩ := List.mem_map.1 h
      have h2 := hL' q' hq'
      simp only [layerBox, Finset.mem_product, Finset.mem_range] at h2
      rw [← node_inj h2.2 h1.2 e]
      exact hq'
  simp [this]

/-- If one set of weights serves both cells, the point is spanned by the common nodes. -/
theorem hull_common {points : List (K × K)} {h : K} {zres : Nat} {C : List (List K)} (hC : Layers points h zres C)
    {L L' : List (Nat × Nat)} (hn : L.Nodup) (hL : ∀ q ∈ L, q ∈ layerBox points.length zres)
    (hL' : ∀ q ∈ L', q ∈ layerBox points.length zres) {P : V3 K} {G : Nat × Nat → K}
    (hG : HullWeights (layerPos points (layerZ h zres)) (layerBox points.length zres) L P G) (hs : ∀ q, q ∉ L' → G q = 0) :
    Hull (((L.map (nodeOf points.length)).filter (· ∈ L'.map (nodeOf points.length))).map (pt3 C)) P := by
  rw [filter_layers hL hL', map_layers hC fun q hq => hL q (List.mem_filter.1 hq).1]
  refine hull_of_weights (hn.filter _) (fun q hq => hL q (List.mem_filter.1 hq).1) (G := G)
    ⟨hG.nonneg, ?_, hG.one, hG.x, hG.y, hG.z⟩
  intro q hq
  by_cases h1 : q ∈ L
  · apply hs
    intro h2
    exact hq (List.mem_filter.2 ⟨h1, by simpa using h2⟩)
  · exact hG.supp q h1

theorem wedge_row {points : List (K × K)} {tris : List (Nat × Nat × Nat)} {h : K} {zres : Nat} {C : List (List K)} {T : Topo}
    (hr : extrudeT3W6 points tris h zres = (C, T)) :
    Layers points h zres C ∧ ∀ r, r ∈ T ↔ ∃ i t, i < zres ∧ t ∈ tris ∧ r = (wedgePairs i t).map (nodeOf points.length) := by
  rw [extrudeT3W6, extrudeCoords_eq points h zres (.refl _), extrudeWedge_eq _ _ _ (.refl _), Prod.mk.injEq] at hr
  obtain ⟨rfl, rfl⟩ := hr
  refine ⟨layers_coordRows points h zres, fun r => ?_⟩
  simp only [wedgeRows, List.mem_flatMap, List.mem_range, List.mem_map]
  constructor
  · rintro ⟨i, hi, t, ht, rfl⟩; exact ⟨i, t, hi, ht, rfl⟩
  · rintro ⟨i, t, hi, ht, rfl⟩; exact ⟨i, hi, t, ht, rfl⟩

theorem tet_row {points : List (K × K)} {tris : List (Nat × Nat × Nat)} {h : K} {zres : Nat} {C : List (List K)} {T : Topo}
    (hr : extrudeT3TET4 points tris h zres = (C, T)) :
    Layers points h zres C ∧ ∀ r, r ∈ T ↔ ∃ i t path, i < zres ∧ t ∈ tris ∧ path ∈ pathExtrude ∧
      r = (tetPairs i t path).map (nodeOf points.length) := by
  rw [extrudeT3TET4, extrudeCoords_eq points h zres (.refl _), extrudeTet_eq _ _ _ (.refl _), Prod.mk.injEq] at hr
  obtain ⟨rfl, rfl⟩ := hr
  refine ⟨layers_coordRows points h zres, fun r => ?_⟩
  have e : ∀ i t path, path ∈ pathExtrude → (path.map fun q => (prism points.length i t).getD q 0) =
      (tetPairs i t path).map (nodeOf points.length) := by
    intro i t path hp
    simp only [pathExtrude, List.mem_cons, List.not_mem_nil, or_false] at hp
    rcases hp with rfl | rfl | rfl <;> rfl
  simp only [tetRows, List.mem_flatMap, List.mem_range, List.mem_map]
  constructor
  · rintro ⟨i, hi, t, ht, p, hp, rfl⟩; exact ⟨i, t, p, hi, ht, hp, e i t p hp⟩
  · rintro ⟨i, t, p, hi, ht, hp, rfl⟩; exact ⟨i, hi, t, ht, p, hp, e i t p hp⟩

/-! ## theorems -/

theorem hull_filter_symm {pts : Nat → V3 K} {r r' : List Nat} {p : V3 K} (h : Hull ((r'.filter (· ∈ r)).map pts) p) :
    Hull ((r.filter (· ∈ r')).map pts) p := by
  refine hull_mono ?_ h
  intro q hq
  obtain ⟨n, hn, rfl⟩ := List.mem_map.1 hq
  obtain ⟨h1, h2⟩ := List.mem_filter.1 hn
  exact List.mem_map_of_mem (List.mem_filter.2 ⟨by simpa using h2, by simpa using h1⟩)

/-- **C128** the wedges of `extrude_T3_W6` fit together, if the triangles do. -/
theorem C128_wedges (points : List (K × K)) (tris : List (Nat × Nat × Nat)) (h : K) (zres : Nat)
    (hp : PlaneFit points tris) (hh : 0 < h) (C : List (List K)) (T : Topo) (hr : extrudeT3W6 points tris h zres = (C, T)) :
    FaceToFace (pt3 C) T := by
  obtain ⟨hC, hrow⟩ := wedge_row hr
  have main : ∀ i t i' t', i < zres → t ∈ tris → i' < zres → t' ∈ tris → i ≤ i' → ∀ P,
      Hull (((wedgePairs i t).map (nodeOf points.length)).map (pt3 C)) P →
      Hull (((wedgePairs i' t').map (nodeOf points.length)).map (pt3 C)) P →
      Hull ((((wedgePairs i t).map (nodeOf points.length)).filter (· ∈ (wedgePairs i' t').map (nodeOf points.length))).map (pt3 C)) P := by
    intro i t i' t' hi ht hi' ht' hle P h1 h2
    have b := wedge_between (i := i) (nodup_of_area (hp.area t ht))
    have b' := wedge_between (i := i') (nodup_of_area (hp.area t' ht'))
    have hb := b.inBox hi (hp.ok t ht)
    have hb' := b'.inBox hi' (hp.ok t' ht')
    have hζ := zeta_mono hh (show 0 < zres by omega)
    rw [map_layers hC hb] at h1
    rw [map_layers hC hb'] at h2
    obtain ⟨G, hG⟩ := weights_of_hull b.nodup hb h1
    obtain ⟨G', hG'⟩ := weights_of_hull b'.nodup hb' h2
    rcases Nat.lt_or_eq_of_le hle with hlt | rfl
    · obtain ⟨e, -⟩ := differ_layers hp hζ ht ht' b b' hi' hlt hG hG'
      exact hull_common hC b.nodup hb hb' hG (e ▸ hG'.supp)
    · have g := column_weights b hi hG
      have e : columnW zres G = columnW zres G' := tri_common hp.ok hp.area hp.fit ht ht' g (column_weights b' hi hG')
      obtain ⟨a1, a2⟩ := height_between b hi hG
      have n1 : 0 ≤ ∑ p ∈ Finset.range points.length, G (i, p) := Finset.sum_nonneg fun p _ => hG.nonneg _
      have n2 : 0 ≤ ∑ p ∈ Finset.range points.length, G (i + 1, p) := Finset.sum_nonneg fun p _ => hG.nonneg _
      generalize ∑ p ∈ Finset.range points.length, G (i, p) = A at *
      generalize ∑ p ∈ Finset.range points.length, G (i + 1, p) = s at *
      have hs : ∀ p, columnW zres G p ≠ 0 → p ∈ triRow t ∧ p ∈ triRow t' := by
        intro p hne
        refine ⟨by_contra fun h => hne (g.supp p h), by_contra fun h => hne ?_⟩
        rw [e]
        exact (column_weights b' hi hG').supp p h
      have w := lift_weights (ζ := layerZ h zres) hi n2 (by linarith : s ≤ 1) g (L := wedgePairs i t)
        fun p hne => mem_wedgePairs (hs p hne).1
      have w' := lift_weights (ζ := layerZ h zres) hi n2 (by linarith : s ≤ 1) g (L := wedgePairs i t')
        fun p hne => mem_wedgePairs (hs p hne).2
      have hP : (⟨P.x, P.y, (1 - s) * layerZ h zres i + s * layerZ h zres (i + 1)⟩ : V3 K) = P := by
        ext
        · rfl
        · rfl
        · simp only; rw [← a2]; linear_combination -(layerZ h zres i) * a1
      rw [hP] at w w'
      exact hull_common hC b.nodup hb hb' w w'.supp
  intro r h1 r' h2 P hP hP'
  obtain ⟨i, t, hi, ht, rfl⟩ := (hrow r).1 h1
  obtain ⟨i', t', hi', ht', rfl⟩ := (hrow r').1 h2
  rcases Nat.le_total i i' with hle | hle
  · exact main i t i' t' hi ht hi' ht' hle P hP hP'
  · exact hull_filter_symm (main i' t' i t hi' ht' hi ht hle P hP' hP)

/-- **C128** a point inside a wedge is in no other wedge. -/
theorem C128_wedges_inner (points : List (K × K)) (tris : List (Nat × Nat × Nat)) (h : K) (zres : Nat)
    (hp : PlaneFit points tris) (hh : 0 < h) (C : List (List K)) (T : Topo) (hr : extrudeT3W6 points tris h zres = (C, T)) :
    ∀ r ∈ T, ∀ r' ∈ T, ∀ p, OpenHull (r.map (pt3 C)) p → Hull (r'.map (pt3 C)) p → ∀ n ∈ r, n ∈ r' := by
  obtain ⟨hC, hrow⟩ := wedge_row hr
  intro r h1 r' h2 P hP hP'
  obtain ⟨i, t, hi, ht, rfl⟩ := (hrow r).1 h1
  obtain ⟨i', t', hi', ht', rfl⟩ := (hrow r').1 h2
  have b := wedge_between (i := i) (nodup_of_area (hp.area t ht))
  have b' := wedge_between (i := i') (nodup_of_area (hp.area t' ht'))
  have hb := b.inBox hi (hp.ok t ht)
  have hb' := b'.inBox hi' (hp.ok t' ht')
  have hζ := zeta_mono hh (show 0 < zres by omega)
  rw [map_layers hC hb] at hP
  rw [map_layers hC hb'] at hP'
  obtain ⟨G, hG, hpos⟩ := weights_of_openHull b.nodup hb hP
  obtain ⟨G', hG'⟩ := weights_of_hull b'.nodup hb' hP'
  have m1 : (i, t.1) ∈ wedgePairs i t := by simp [wedgePairs]
  have m2 : (i + 1, t.1) ∈ wedgePairs i t := by simp [wedgePairs]
  have hii : i = i' := by
    rcases Nat.lt_trichotomy i i' with hlt | he | hlt
    · obtain ⟨-, e⟩ := differ_layers hp hζ ht ht' b b' hi' hlt hG hG'
      exact absurd (e t.1) (hpos _ m1).ne'
    · exact he
    · obtain ⟨e, e2⟩ := differ_layers hp hζ ht' ht b' b hi hlt hG' hG
      have := hG'.supp (i + 1, t.1) (fun hq => by rcases b'.layer _ hq with h | h <;> simp only at h <;> omega)
      rw [e] at this
      exact absurd this (hpos _ m2).ne'
  subst hii
  have e := columns_eq hp ht ht' b b' hi hi hG hG'
  intro n hn
  obtain ⟨q, hq, rfl⟩ := List.mem_map.1 hn
  have hq2 : q.2 ∈ triRow t' := by
    by_contra hno
    have := e q.2
    rw [hG'.supp (i, q.2) (fun h => hno (b'.tri (i, q.2) h)), hG'.supp (i + 1, q.2) (fun h => hno (b'.tri (i + 1, q.2) h))] at this
    obtain ⟨k1, k2⟩ := mem_wedgePairs (i := i) (b.tri q hq)
    have := hpos _ k1
    have := hpos _ k2
    linarith
  obtain ⟨k1, k2⟩ := mem_wedgePairs (i := i) hq2
  apply List.mem_map_of_mem
  rcases b.layer q hq with h | h
  · rw [← show (i, q.2) = q from Prod.ext h.symm rfl]; exact k1
  · rw [← show (i + 1, q.2) = q from Prod.ext h.symm rfl]; exact k2

/-- **C128** the tetrahedra of `extrude_T3_TET4` fit together, if the triangles do and list the ends of common edges in
the same order; a point inside a tetrahedron is in no other one. Missing: other orders (`C128_tets_false`). -/
theorem C128_tets_partial (points : List (K × K)) (tris : List (Nat × Nat × Nat)) (h : K) (zres : Nat)
    (hp : PlaneFit points tris) (hh : 0 < h) (hord : ∀ t ∈ tris, ∀ t' ∈ tris, ∀ p q, Before t p q → ¬ Before t' q p)
    (C : List (List K)) (T : Topo) (hr : extrudeT3TET4 points tris h zres = (C, T)) :
    FaceToFace (pt3 C) T ∧
    ∀ r ∈ T, ∀ r' ∈ T, ∀ p, OpenHull (r.map (pt3 C)) p → Hull (r'.map (pt3 C)) p → ∀ n ∈ r, n ∈ r' := by
  obtain ⟨hC, hrow⟩ := tet_row hr
  have main : ∀ i t path i' t' path', i < zres → t ∈ tris → path ∈ pathExtrude → i' < zres → t' ∈ tris →
      path' ∈ pathExtrude → ∀ P G G',
      HullWeights (layerPos points (layerZ h zres)) (layerBox points.length zres) (tetPairs i t path) P G →
      HullWeights (layerPos points (layerZ h zres)) (layerBox points.length zres) (tetPairs i' t' path') P G' → G = G' := by
    intro i t path i' t' path' hi ht hpa hi' ht' hpa' P G G' hG hG'
    obtain ⟨b, s⟩ := tet_between (i := i) (nodup_of_area (hp.area t ht)) hpa
    obtain ⟨b', s'⟩ := tet_between (i := i') (nodup_of_area (hp.area t' ht')) hpa'
    have hζ := zeta_mono hh (show 0 < zres by omega)
    rcases Nat.lt_trichotomy i i' with hlt | rfl | hlt
    · exact (differ_layers hp hζ ht ht' b b' hi' hlt hG hG').1
    · exact same_layer hp hζ ht ht' (hord t ht t' ht') b b' s s' hi hG hG'
    · exact (differ_layers hp hζ ht' ht b' b hi hlt hG' hG).1.symm
  constructor
  · intro r h1 r' h2 P hP hP'
    obtain ⟨i, t, path, hi, ht, hpa, rfl⟩ := (hrow r).1 h1
    obtain ⟨i', t', path', hi', ht', hpa', rfl⟩ := (hrow r').1 h2
    obtain ⟨b, -⟩ := tet_between (i := i) (nodup_of_area (hp.area t ht)) hpa
    obtain ⟨b', -⟩ := tet_between (i := i') (nodup_of_area (hp.area t' ht')) hpa'
    have hb := b.inBox hi (hp.ok t ht)
    have hb' := b'.inBox hi' (hp.ok t' ht')
    rw [map_layers hC hb] at hP
    rw [map_layers hC hb'] at hP'
    obtain ⟨G, hG⟩ := weights_of_hull b.nodup hb hP
    obtain ⟨G', hG'⟩ := weights_of_hull b'.nodup hb' hP'
    have e := main _ _ _ _ _ _ hi ht hpa hi' ht' hpa' P G G' hG hG'
    exact hull_common hC b.nodup hb hb' hG (e ▸ hG'.supp)
  · intro r h1 r' h2 P hP hP'
    obtain ⟨i, t, path, hi, ht, hpa, rfl⟩ := (hrow r).1 h1
    obtain ⟨i', t', path', hi', ht', hpa', rfl⟩ := (hrow r').1 h2
    obtain ⟨b, -⟩ := tet_between (i := i) (nodup_of_area (hp.area t ht)) hpa
    obtain ⟨b', -⟩ := tet_between (i := i') (nodup_of_area (hp.area t' ht')) hpa'
    have hb := b.inBox hi (hp.ok t ht)
    have hb' := b'.inBox hi' (hp.ok t' ht')
    rw [map_layers hC hb] at hP
    rw [map_layers hC hb'] at hP'
    obtain ⟨G, hG, hpos⟩ := weights_of_openHull b.nodup hb hP
    obtain ⟨G', hG'⟩ := weights_of_hull b'.nodup hb' hP'
    have e := main _ _ _ _ _ _ hi ht hpa hi' ht' hpa' P G G' hG hG'
    intro n hn
    obtain ⟨q, hq, rfl⟩ := List.mem_map.1 hn
    apply List.mem_map_of_mem
    by_contra hno
    have h0 := hG'.supp q hno
    rw [← e] at h0
    exact (hpos q hq).ne' h0

/-- **C128** the wedges cover the prism over the triangles, and nothing else. -/
theorem C128_wedges_cover (points : List (K × K)) (tris : List (Nat × Nat × Nat)) (h : K) (zres : Nat)
    (hok : TrisOK points.length tris) (ha : ∀ t ∈ tris, area2D points t ≠ 0) (hh : 0 < h) (hz : 0 < zres)
    (C : List (List K)) (T : Topo) (hr : extrudeT3W6 points tris h zres = (C, T)) (p : V3 K) :
    (∃ r ∈ T, Hull (r.map (pt3 C)) p) ↔
      (∃ t ∈ tris, Hull ((triRow t).map (planePts points)) ⟨p.x, p.y, 0⟩) ∧ 0 ≤ p.z ∧ p.z ≤ h := by
  obtain ⟨hC, hrow⟩ := wedge_row hr
  have hζ := zeta_mono hh hz
  have z0 : layerZ h zres 0 = 0 := by simp [layerZ]
  have z1 : layerZ h zres zres = h := by
    have : ((zres : Nat) : K) ≠ 0 := by exact_mod_cast hz.ne'
    unfold layerZ; field_simp
  constructor
  · rintro ⟨r, h1, hP⟩
    obtain ⟨i, t, hi, ht, rfl⟩ := (hrow r).1 h1
    have b := wedge_between (i := i) (nodup_of_area (ha t ht))
    have hb := b.inBox hi (hok t ht)
    rw [map_layers hC hb] at hP
    obtain ⟨G, hG⟩ := weights_of_hull b.nodup hb hP
    have g := column_weights b hi hG
    refine ⟨⟨t, ht, hull_of_weights (nodup_of_area (ha t ht)) ?_ g⟩, ?_⟩
    · intro q hq; exact Finset.mem_range.2 (triRow_lt (hok t ht) q hq)
    · obtain ⟨a1, a2⟩ := height_between b hi hG
      have n1 : 0 ≤ ∑ p ∈ Finset.range points.length, G (i, p) := Finset.sum_nonneg fun p _ => hG.nonneg _
      have n2 : 0 ≤ ∑ p ∈ Finset.range points.length, G (i + 1, p) := Finset.sum_nonneg fun p _ => hG.nonneg _
      generalize ∑ p ∈ Finset.range points.length, G (i, p) = A at *
      generalize ∑ p ∈ Finset.range points.length, G (i + 1, p) = s at *
      have k0 : 0 ≤ layerZ h zres i := z0 ▸ hζ.monotone (Nat.zero_le i)
      have k1 : layerZ h zres (i + 1) ≤ h := (hζ.monotone hi).trans_eq z1
      have k2 : layerZ h zres i ≤ layerZ h zres (i + 1) := hζ.monotone (by omega)
      constructor
      · rw [← a2]
        exact add_nonneg (mul_nonneg k0 n1) (mul_nonneg (k0.trans k2) n2)
      · rw [← a2]
        have m1 := mul_nonneg (sub_nonneg.2 (k2.trans k1)) n1
        have m2 := mul_nonneg (sub_nonneg.2 k1) n2
        have : A = 1 - s := by linarith
        subst this
        linarith
  · rintro ⟨⟨t, ht, hP⟩, p0, p1⟩
    have find : ∀ n, p.z ≤ layerZ h zres n → 0 < n → ∃ i, i < n ∧ layerZ h zres i ≤ p.z ∧ p.z ≤ layerZ h zres (i + 1) := by
      intro n
      induction n with
      | zero => intro _ h; omega
      | succ n ih =>
        intro hle _
        by_cases hc : layerZ h zres n ≤ p.z
        · exact ⟨n, by omega, hc, hle⟩
        · cases n with
          | zero => rw [z0] at hc; exact absurd p0 hc
          | succ n =>
            obtain ⟨i, h1, h2⟩ := ih (le_of_not_ge hc) (by omega)
            exact ⟨i, by omega, h2⟩
    obtain ⟨i, hi, i1, i2⟩ := find zres (z1.symm ▸ p1) hz
    refine ⟨_, (hrow _).2 ⟨i, t, hi, ht, rfl⟩, ?_⟩
    have b := wedge_between (i := i) (nodup_of_area (ha t ht))
    have hb := b.inBox hi (hok t ht)
    rw [map_layers hC hb]
    obtain ⟨g, hg⟩ := weights_of_hull (nodup_of_area (ha t ht)) (B := Finset.range points.length)
      (fun q hq => Finset.mem_range.2 (triRow_lt (hok t ht) q hq)) hP
    have hd : 0 < layerZ h zres (i + 1) - layerZ h zres i := sub_pos.2 (hζ (by omega))
    have w := lift_weights (ζ := layerZ h zres) (L := wedgePairs i t) hi
      (s := (p.z - layerZ h zres i) / (layerZ h zres (i + 1) - layerZ h zres i))
      (div_nonneg (by linarith) hd.le) ((div_le_one hd).2 (by linarith)) hg
      (fun q hq => mem_wedgePairs (by_contra fun h => hq (hg.supp q h)))
    have hP : (⟨p.x, p.y, (1 - (p.z - layerZ h zres i) / (layerZ h zres (i + 1) - layerZ h zres i)) * layerZ h zres i +
        (p.z - layerZ h zres i) / (layerZ h zres (i + 1) - layerZ h zres i) * layerZ h zres (i + 1)⟩ : V3 K) = p := by
      ext
      · rfl
      · rfl
      · simp only
        have := div_mul_cancel₀ (p.z - layerZ h zres i) hd.ne'
        linear_combination this
    rw [hP] at w
    exact hull_of_weights b.nodup hb w

/-- **C128** so do the tetrahedra. -/
theorem C128_tets_cover (points : List (K × K)) (tris : List (Nat × Nat × Nat)) (h : K) (zres : Nat)
    (hok : TrisOK points.length tris) (ha : ∀ t ∈ tris, area2D points t ≠ 0) (hh : 0 < h) (hz : 0 < zres)
    (C : List (List K)) (T : Topo) (hr : extrudeT3TET4 points tris h zres = (C, T)) (p : V3 K) :
    (∃ r ∈ T, Hull (r.map (pt3 C)) p) ↔
      (∃ t ∈ tris, Hull ((triRow t).map (planePts points)) ⟨p.x, p.y, 0⟩) ∧ 0 ≤ p.z ∧ p.z ≤ h := by
  have hc : (extrudeT3W6 points tris h zres).1 = C := by
    have : (extrudeT3W6 points tris h zres).1 = (extrudeT3TET4 points tris h zres).1 := rfl
    rw [this, hr]
  rw [← C128_wedges_cover points tris h zres hok ha hh hz C _ (Prod.ext hc rfl) p]
  obtain ⟨_, hrow⟩ := tet_row hr
  obtain ⟨_, wrow⟩ := wedge_row (C := C) (T := (extrudeT3W6 points tris h zres).2) (Prod.ext hc rfl)
  constructor
  · rintro ⟨r, h1, hP⟩
    obtain ⟨i, t, path, hi, ht, hpa, rfl⟩ := (hrow r).1 h1
    refine ⟨_, (wrow _).2 ⟨i, t, hi, ht, rfl⟩, hull_mono ?_ hP⟩
    intro q hq
    obtain ⟨n, hn, rfl⟩ := List.mem_map.1 hq
    obtain ⟨m, hm, rfl⟩ := List.mem_map.1 hn
    apply List.mem_map_of_mem
    apply List.mem_map_of_mem
    obtain ⟨k, hk, rfl⟩ := List.mem_map.1 hm
    have : k < 6 := (pathExtrude_ok path hpa).2.2 k hk
    rw [getD_of_lt (show k < (wedgePairs i t).length from this)]
    exact List.getElem_mem _
  · rintro ⟨r, h1, hP⟩
    obtain ⟨i, t, hi, ht, rfl⟩ := (wrow r).1 h1
    obtain ⟨j, hj⟩ := List.getElem?_of_mem ht
    obtain ⟨k, r, _, hrr, hh⟩ := (C15_prism_filled points tris h zres hok C T hr i j t hi hj (ha t ht) hh.ne').1 p hP
    exact ⟨r, List.mem_of_getElem? hrr, hh⟩

end

/-- Two triangles of a square, with the ends of the common edge in different orders. -/
theorem square_plane : PlaneFit ([(0, 0), (1, 0), (0, 1), (1, 1)] : List (Rat × Rat)) [(0, 1, 2), (2, 1, 3)] := by
  refine ⟨by decide, by decide +kernel, ?_⟩
  have e0 : ([0, 1, 2].map (planePts ([(0, 0), (1, 0), (0, 1), (1, 1)] : List (Rat × Rat)))) = [⟨0, 0, 0⟩, ⟨1, 0, 0⟩, ⟨0, 1, 0⟩] := rfl
  have e1 : ([2, 1, 3].map (planePts ([(0, 0), (1, 0), (0, 1), (1, 1)] : List (Rat × Rat)))) = [⟨0, 1, 0⟩, ⟨1, 0, 0⟩, ⟨1, 1, 0⟩] := rfl
  have edge : ∀ p : V3 Rat, Hull [⟨0, 0, 0⟩, ⟨1, 0, 0⟩, ⟨0, 1, 0⟩] p → Hull [⟨0, 1, 0⟩, ⟨1, 0, 0⟩, ⟨1, 1, 0⟩] p →
      Hull [⟨1, 0, 0⟩, ⟨0, 1, 0⟩] p := by
    intro p h0 h1
    have a1 := hull_nonneg h0 ⟨1, 0, 0⟩ 0 (by simp [dot])
    have a2 := hull_nonneg h0 ⟨0, 1, 0⟩ 0 (by simp [dot])
    have a3 := hull_nonneg h0 ⟨-1, -1, 0⟩ 1 (by simp [dot])
    have a4 := hull_nonneg h0 ⟨0, 0, 1⟩ 0 (by simp [dot])
    have a5 := hull_nonneg h0 ⟨0, 0, -1⟩ 0 (by simp [dot])
    have b3 := hull_nonneg h1 ⟨1, 1, 0⟩ (-1) (by simp [dot])
    simp [dot] at a1 a2 a3 a4 a5 b3
    refine ⟨[p.x, p.y], rfl, by simp [a1, a2], by simp; linarith, ?_⟩
    ext <;> simp [lincomb]; linarith
  intro r hr r' hr' p h h'
  simp only [List.map_cons, List.map_nil, triRow, List.mem_cons, List.not_mem_nil, or_false] at hr hr'
  rcases hr with rfl | rfl <;> rcases hr' with rfl | rfl
  · exact h
  · rw [e0] at h; rw [e1] at h'
    exact edge p h h'
  · rw [e1] at h; rw [e0] at h'
    refine hull_mono ?_ (edge p h' h)
    decide +kernel
  · exact h

/-- **C128**, negation: tetrahedra do not fit together only because the triangles do: the middle of the face between
the two prisms over a square is in `[0, 1, 6, 5]` and in `[2, 1, 7, 5]`, but not on the line from `1` to `5`. -/
theorem C128_tets_false : ¬ ∀ (points : List (Rat × Rat)) (tris : List (Nat × Nat × Nat)) (h : Rat) (zres : Nat),
    PlaneFit points tris → 0 < h → FaceToFace (pt3 (extrudeT3TET4 points tris h zres).1) (extrudeT3TET4 points tris h zres).2 := by
  intro hall
  have := hall _ _ 1 1 square_plane (by norm_num)
  have hT : (extrudeT3TET4 ([(0, 0), (1, 0), (0, 1), (1, 1)] : List (Rat × Rat)) [(0, 1, 2), (2, 1, 3)] 1 1).2 =
      [[0, 1, 2, 6], [0, 1, 6, 5], [0, 5, 6, 4], [2, 1, 3, 7], [2, 1, 7, 5], [2, 5, 7, 6]] := by decide +kernel
  have hC : (extrudeT3TET4 ([(0, 0), (1, 0), (0, 1), (1, 1)] : List (Rat × Rat)) [(0, 1, 2), (2, 1, 3)] 1 1).1 =
      [[0, 0, 0], [1, 0, 0], [0, 1, 0], [1, 1, 0], [0, 0, 1], [1, 0, 1], [0, 1, 1], [1, 1, 1]] := by decide +kernel
  rw [hT, hC] at this
  have h1 := this [0, 1, 6, 5] (by decide) [2, 1, 7, 5] (by decide) ⟨1/2, 1/2, 1/2⟩
    ⟨[0, 1/2, 1/2, 0], rfl, by decide +kernel, by decide +kernel, by decide +kernel⟩
    ⟨[1/2, 0, 0, 1/2], rfl, by decide +kernel, by decide +kernel, by decide +kernel⟩
  have h2 := hull_nonneg h1 ⟨1, 0, 0⟩ (-1) (by decide +kernel)
  revert h2
  decide +kernel

/-- Non-vacuity: two triangles that list the ends of their common edge in the same order. -/
theorem square_plane2 : PlaneFit ([(0, 0), (1, 0), (0, 1), (1, 1)] : List (Rat × Rat)) [(0, 1, 2), (1, 2, 3)] := by
  refine ⟨by decide, by decide +kernel, ?_⟩
  have h := square_plane.fit
  intro r hr r' hr' p hp hp'
  simp only [List.map_cons, List.map_nil, triRow, List.mem_cons, List.not_mem_nil, or_false] at hr hr'
  have up : Hull ([1, 2, 3].map (planePts ([(0, 0), (1, 0), (0, 1), (1, 1)] : List (Rat × Rat)))) p →
      Hull ([2, 1, 3].map (planePts ([(0, 0), (1, 0), (0, 1), (1, 1)] : List (Rat × Rat)))) p := hull_mono (by decide +kernel)
  rcases hr with rfl | rfl <;> rcases hr' with rfl | rfl
  · exact hp
  · exact hull_mono (by decide +kernel) (h [0, 1, 2] (by decide) [2, 1, 3] (by decide) p hp (up hp'))
  · exact hull_mono (by decide +kernel) (h [0, 1, 2] (by decide) [2, 1, 3] (by decide) p hp' (up hp))
  · exact hp

example : (∀ t ∈ [(0, 1, 2), (1, 2, 3)], ∀ t' ∈ [(0, 1, 2), (1, 2, 3)], ∀ p q, Before t p q → ¬ Before t' q p) ∧
    (extrudeT3TET4 ([(0, 0), (1, 0), (0, 1), (1, 1)] : List (Rat × Rat)) [(0, 1, 2), (1, 2, 3)] 1 1).2 =
      [[0, 1, 2, 6], [0, 1, 6, 5], [0, 5, 6, 4], [1, 2, 3, 7], [1, 2, 7, 6], [1, 6, 7, 5]] := by
  refine ⟨?_, by decide +kernel⟩
  simp only [List.mem_cons, List.not_mem_nil, or_false, Before]
  rintro t (rfl | rfl) t' (rfl | rfl) p q <;> simp only <;> omega

example : (extrudeT3W6 ([(0, 0), (1, 0), (0, 1), (1, 1)] : List (Rat × Rat)) [(0, 1, 2), (2, 1, 3)] 1 2).2 =
    [[0, 1, 2, 4, 5, 6], [2, 1, 3, 6, 5, 7], [4, 5, 6, 8, 9, 10], [6, 5, 7, 10, 9, 11]] := by decide +kernel

end PM
