import Verif.Frames
import Verif.TopoLemmas
import Mathlib.Algebra.Order.Field.Rat
import Mathlib.Tactic.NormNum.NatSqrt
import Mathlib.Tactic.NormNum.RealSqrt

/-!
# C31: frames of cells. C32: nearest and furthest points.
-/

namespace PM

open V3

/-! ## specification -/

/-- Three unit vectors, mutually orthogonal, right-handed. -/
structure IsFrame (F : Frame) : Prop where
  ii : dot F.i F.i = 1
  jj : dot F.j F.j = 1
  kk : dot F.k F.k = 1
  ij : dot F.i F.j = 0
  ik : dot F.i F.k = 0
  jk : dot F.j F.k = 0
  right : cross F.i F.j = F.k

/-- `e` has the direction of `v`. -/
def Along (e v : V3 ℝ) : Prop := ∃ c : ℝ, 0 < c ∧ e = c • v

/-! ## lemmas -/

theorem dot_self_nonneg (v : V3 ℝ) : 0 ≤ dot v v := by
  simp only [dot]; nlinarith [mul_self_nonneg v.x, mul_self_nonneg v.y, mul_self_nonneg v.z]

theorem dot_self_pos {v : V3 ℝ} (h : v ≠ 0) : 0 < dot v v := by
  rcases lt_or_eq_of_le (dot_self_nonneg v) with h1 | h1
  · exact h1
  · exfalso
    apply h
    simp only [dot] at h1
    have hx := mul_self_nonneg v.x
    have hy := mul_self_nonneg v.y
    have hz := mul_self_nonneg v.z
    ext
    · exact mul_self_eq_zero.1 (by linarith)
    · exact mul_self_eq_zero.1 (by linarith)
    · exact mul_self_eq_zero.1 (by linarith)

theorem vnorm_pos {v : V3 ℝ} (h : v ≠ 0) : 0 < vnorm v := Real.sqrt_pos.2 (dot_self_pos h)

theorem vnorm_sq (v : V3 ℝ) : vnorm v * vnorm v = dot v v := Real.mul_self_sqrt (dot_self_nonneg v)

theorem dot_smul_smul (a b : ℝ) (u v : V3 ℝ) : dot (a • u) (b • v) = a * b * dot u v := by
  simp only [dot, smul_x, smul_y, smul_z]; ring

theorem cross_smul_smul (a b : ℝ) (u v : V3 ℝ) : cross (a • u) (b • v) = (a * b) • cross u v := by
  ext <;> simp only [cross, smul_x, smul_y, smul_z] <;> ring

/-- A non-zero vector is normalized to a unit vector of its direction. -/
theorem normalize_some {v : V3 ℝ} (h : v ≠ 0) : ∃ e, normalize v = some e ∧ dot e e = 1 ∧ Along e v := by
  have hp := vnorm_pos h
  refine ⟨_, by rw [normalize, if_neg h], ?_, 1 / vnorm v, by positivity, rfl⟩
  rw [dot_smul_smul, ← vnorm_sq]
  field_simp

theorem normalize_zero : normalize 0 = none := by rw [normalize, if_pos rfl]

/-- Two orthogonal unit vectors make a frame. -/
theorem frame_of {e1 e3 : V3 ℝ} (h1 : dot e1 e1 = 1) (h3 : dot e3 e3 = 1) (h : dot e1 e3 = 0) :
    IsFrame ⟨e1, cross e3 e1, e3⟩ := by
  refine ⟨h1, ?_, h3, ?_, h, ?_, ?_⟩
  · have : dot (cross e3 e1) (cross e3 e1) = dot e3 e3 * dot e1 e1 - dot e1 e3 * dot e1 e3 := by
      simp only [dot, cross]; ring
    rw [this, h1, h3, h]; ring
  · simp only [dot, cross]; ring
  · simp only [dot, cross]; ring
  · have : cross e1 (cross e3 e1) = dot e1 e1 • e3 - dot e1 e3 • e1 := by
      ext <;> simp only [dot, cross, smul_x, smul_y, smul_z, sub_x, sub_y, sub_z] <;> ring
    change cross e1 (cross e3 e1) = e3
    rw [this, h1, h]
    ext <;> simp

theorem surfaceFrame_spec {u v : V3 ℝ} (h : cross u v ≠ 0) :
    ∃ F, surfaceFrame u v = some F ∧ IsFrame F ∧ Along F.i u ∧ Along F.k (cross u v) := by
  have hu : u ≠ 0 := by
    rintro rfl; apply h; ext <;> simp [cross]
  have hv : v ≠ 0 := by
    rintro rfl; apply h; ext <;> simp [cross]
  obtain ⟨e1, h1, h1', a, ha, rfl⟩ := normalize_some hu
  obtain ⟨e2, h2, h2', b, hb, rfl⟩ := normalize_some hv
  have hab : 0 < a * b := mul_pos ha hb
  have hc : cross (a • u) (b • v) ≠ 0 := by
    rw [cross_smul_smul]
    intro h0
    apply h
    have hx := congrArg V3.x h0
    have hy := congrArg V3.y h0
    have hz := congrArg V3.z h0
    simp only [smul_x, smul_y, smul_z, zero_x, zero_y, zero_z, mul_eq_zero, hab.ne', false_or] at hx hy hz
    ext
    · exact hx
    · exact hy
    · exact hz
  obtain ⟨e3, h3, h3', c, hc', rfl⟩ := normalize_some hc
  refine ⟨_, by rw [surfaceFrame, h1, Option.bind_some, h2, Option.bind_some, h3, Option.map_some], ?_, ⟨a, ha, rfl⟩,
    c * (a * b), mul_pos hc' hab, ?_⟩
  · apply frame_of h1' h3'
    simp only [dot, cross, smul_x, smul_y, smul_z]; ring
  · change c • cross (a • u) (b • v) = (c * (a * b)) • cross u v
    rw [cross_smul_smul]
    ext <;> simp only [smul_x, smul_y, smul_z] <;> ring

/-- The three components of a vector in a frame have the length of the vector. -/
theorem IsFrame.pythagoras {F : Frame} (h : IsFrame F) (v : V3 ℝ) :
    dot F.i v * dot F.i v + dot F.j v * dot F.j v + dot F.k v * dot F.k v = dot v v := by
  have hk : dot F.k v = det3 F.i F.j v := by
    rw [← h.right]; simp only [dot, cross, det3]; ring
  have gram : det3 F.i F.j v * det3 F.i F.j v =
      dot F.i F.i * dot F.j F.j * dot v v + 2 * dot F.i F.j * dot F.i v * dot F.j v
      - dot F.i F.i * (dot F.j v * dot F.j v) - dot F.j F.j * (dot F.i v * dot F.i v)
      - dot v v * (dot F.i F.j * dot F.i F.j) := by
    simp only [dot, det3]; ring
  rw [hk, gram, h.ii, h.jj, h.ij]; ring

/-! ## C31 -/

/-- The edges from the first node of a cell to its second and its last one. -/
structure CellEdges (coords : List (V3 ℝ)) (row : List Nat) (u v : V3 ℝ) : Prop where
  ex : ∃ a b c pa pb pc, row.head? = some a ∧ row[1]? = some b ∧ row.getLast? = some c ∧ coords[a]? = some pa ∧
    coords[b]? = some pb ∧ coords[c]? = some pc ∧ u = pb - pa ∧ v = pc - pa

theorem surfaceVecs_of {coords : List (V3 ℝ)} {row : List Nat} {u v : V3 ℝ} (h : CellEdges coords row u v) :
    surfaceVecs coords row = some (u, v) := by
  obtain ⟨a, b, c, pa, pb, pc, h1, h2, h3, h4, h5, h6, rfl, rfl⟩ := h.ex
  rw [List.head?_eq_getElem?] at h1
  rw [List.getLast?_eq_getElem?] at h3
  simp [surfaceVecs, h1, h2, h3, h4, h5, h6]

/-- **C31** frames of surfaces: if in every cell the edges from the first node to the second and to the last one are
not parallel, there is one frame per cell, orthonormal and right-handed, the first axis along the first edge, the third
along the normal. -/
theorem C31_surfaces {coords : List (V3 ℝ)} {topo : Topo} {ev : List Nat → V3 ℝ × V3 ℝ}
    (h : ∀ row ∈ topo, CellEdges coords row (ev row).1 (ev row).2 ∧ cross (ev row).1 (ev row).2 ≠ 0) :
    ∃ Fs, framesOfSurfaces coords topo = some Fs ∧ Fs.length = topo.length ∧
      ∀ (c : Nat) (row : List Nat) (F : Frame), topo[c]? = some row → Fs[c]? = some F →
        IsFrame F ∧ Along F.i (ev row).1 ∧ Along F.k (cross (ev row).1 (ev row).2) := by
  have key : ∀ row ∈ topo, ∃ F, ((surfaceVecs coords row).bind fun uv => surfaceFrame uv.1 uv.2) = some F ∧
      IsFrame F ∧ Along F.i (ev row).1 ∧ Along F.k (cross (ev row).1 (ev row).2) := by
    intro row hr
    obtain ⟨h1, h2⟩ := h row hr
    obtain ⟨F, hF, hF'⟩ := surfaceFrame_spec h2
    exact ⟨F, by rw [surfaceVecs_of h1]; exact hF, hF'⟩
  unfold framesOfSurfaces
  clear h
  induction topo with
  | nil => exact ⟨[], rfl, rfl, by simp⟩
  | cons r topo ih =>
    obtain ⟨F, hF, hF'⟩ := key r List.mem_cons_self
    obtain ⟨Fs, h1, h2, h3⟩ := ih fun x hx => key x (List.mem_cons_of_mem _ hx)
    refine ⟨F :: Fs, by rw [List.mapM_cons, hF, h1]; rfl, by simp [h2], ?_⟩
    intro c row G hc hG
    cases c with
    | zero =>
      simp at hc hG
      subst hc; subst hG
      exact hF'
    | succ c =>
      rw [List.getElem?_cons_succ] at hc hG
      exact h3 c row G hc hG

/-- **C31** local coordinates of cells: the origin is the mean of the nodes, the frame is as above, and for a plane
cell (all nodes in the plane of the edges used for the frame) distances between nodes are those of their local
coordinates. -/
theorem C31_local_coords {coords : List (V3 ℝ)} {row : List Nat} {pts : List (V3 ℝ)} {u v : V3 ℝ}
    (hp : row.mapM (fun n => coords[n]?) = some pts) (he : CellEdges coords row u v) (hc : cross u v ≠ 0) :
    ∃ loc ctr F, cellGlobToLoc coords row = some (loc, ctr, F) ∧ IsFrame F ∧ Along F.i u ∧ Along F.k (cross u v) ∧
      loc.length = pts.length ∧
      ((pts.length : ℝ) * ctr.x = (pts.map V3.x).sum ∧ (pts.length : ℝ) * ctr.y = (pts.map V3.y).sum ∧
        (pts.length : ℝ) * ctr.z = (pts.map V3.z).sum) ∧
      ∀ (a b : Nat) (p q : V3 ℝ) (s t : ℝ × ℝ), pts[a]? = some p → pts[b]? = some q → loc[a]? = some s →
        loc[b]? = some t → dot (cross u v) (p - q) = 0 →
        (s.1 - t.1) * (s.1 - t.1) + (s.2 - t.2) * (s.2 - t.2) = dot (p - q) (p - q) := by
  obtain ⟨F, hF, h1, h2, h3⟩ := surfaceFrame_spec hc
  have hne : pts ≠ [] := by
    rintro rfl
    obtain ⟨a, b, c, pa, pb, pc, e1, _⟩ := he.ex
    cases row with
    | nil => simp at e1
    | cons x row =>
      rw [List.mapM_cons] at hp
      cases hx : coords[x]? with
      | none => rw [hx] at hp; simp at hp
      | some y =>
        rw [hx] at hp
        obtain ⟨_, _, hp⟩ := Option.bind_eq_some_iff.1 hp
        obtain ⟨_, _, hp⟩ := Option.bind_eq_some_iff.1 hp
        cases hp
  have hlen : (pts.length : ℝ) ≠ 0 := by
    rw [Nat.cast_ne_zero]; simpa using hne
  refine ⟨localCoords F (centroid pts) pts, centroid pts, F, by rw [cellGlobToLoc, hp, surfaceVecs_of he]; simp [hF], h1, h2, h3, by simp [localCoords], ?_, ?_⟩
  · simp only [centroid]
    refine ⟨?_, ?_, ?_⟩ <;> rw [mul_div_cancel₀ _ hlen]
  · intro a b p q s t hp hq hs ht hpl
    simp only [localCoords, List.getElem?_map, hp, hq, Option.map_some, Option.some.injEq] at hs ht
    subst hs; subst ht
    obtain ⟨k, hk, hk'⟩ := h3
    have hz : dot F.k (p - q) = 0 := by
      rw [hk']
      have : dot (k • cross u v) (p - q) = k * dot (cross u v) (p - q) := by
        simp only [dot, smul_x, smul_y, smul_z]; ring
      rw [this, hpl, mul_zero]
    have hpy := h1.pythagoras (p - q)
    rw [hz] at hpy
    have hsub : ∀ (e c : V3 ℝ), dot e (p - c) - dot e (q - c) = dot e (p - q) := by
      intro e c; simp only [dot, sub_x, sub_y, sub_z]; ring
    rw [hsub, hsub]
    linarith

/-- A square in space. -/
example : CellEdges [⟨0, 0, 1⟩, ⟨2, 0, 1⟩, ⟨2, 2, 1⟩, ⟨0, 2, 1⟩] [0, 1, 2, 3] ⟨2, 0, 0⟩ ⟨0, 2, 0⟩ ∧
    cross (⟨2, 0, 0⟩ : V3 ℝ) ⟨0, 2, 0⟩ ≠ 0 := by
  refine ⟨⟨0, 1, 3, ⟨0, 0, 1⟩, ⟨2, 0, 1⟩, ⟨0, 2, 1⟩, rfl, rfl, rfl, rfl, rfl, rfl, ?_, ?_⟩, ?_⟩
  · ext <;> simp
  · ext <;> simp
  · intro h
    have := congrArg V3.z h
    simp [cross] at this

/-- **C31** is false of `tri_glob_to_loc`: the third axis is the cross product of the normalized edges without
normalization, so its frame is orthonormal exactly if the triangle has a right angle at the first corner. -/
theorem C31_tri_glob_to_loc_false {a b c : V3 ℝ} (h : cross (b - a) (c - a) ≠ 0) :
    ∃ loc ctr F, triGlobToLoc a b c = some (loc, ctr, F) ∧ (IsFrame F ↔ dot (b - a) (c - a) = 0) := by
  have hu : b - a ≠ 0 := by
    intro h0; rw [h0] at h; apply h; ext <;> simp [cross]
  have hv : c - a ≠ 0 := by
    intro h0; rw [h0] at h; apply h; ext <;> simp [cross]
  obtain ⟨e1, h1, h1', s, hs, rfl⟩ := normalize_some hu
  obtain ⟨e2, h2, h2', t, ht, rfl⟩ := normalize_some hv
  refine ⟨_, _, _, by rw [triGlobToLoc, triFrame, h1, Option.bind_some, h2, Option.map_some, Option.map_some], ?_⟩
  have hl : dot (cross (s • (b - a)) (t • (c - a))) (cross (s • (b - a)) (t • (c - a))) =
      1 - (s * t * dot (b - a) (c - a)) * (s * t * dot (b - a) (c - a)) := by
    rw [← dot_smul_smul]
    have : dot (cross (s • (b - a)) (t • (c - a))) (cross (s • (b - a)) (t • (c - a))) =
        dot (s • (b - a)) (s • (b - a)) * dot (t • (c - a)) (t • (c - a)) -
        dot (s • (b - a)) (t • (c - a)) * dot (s • (b - a)) (t • (c - a)) := by
      simp only [dot, cross]; ring
    rw [this, h1', h2']; ring
  constructor
  · intro hF
    have := hF.kk
    simp only at this
    rw [hl] at this
    have h0 : s * t * dot (b - a) (c - a) = 0 := mul_self_eq_zero.1 (by linarith)
    exact (mul_eq_zero.1 h0).resolve_left (mul_pos hs ht).ne'
  · intro h0
    apply frame_of h1'
    · rw [hl, h0]; ring
    · simp only [dot, cross]; ring

/-- Both cases occur. -/
example : dot (⟨1, 0, 0⟩ - ⟨0, 0, 0⟩ : V3 ℝ) (⟨0, 1, 0⟩ - ⟨0, 0, 0⟩) = 0 ∧
    dot (⟨1, 0, 0⟩ - ⟨0, 0, 0⟩ : V3 ℝ) (⟨1, 1, 0⟩ - ⟨0, 0, 0⟩) ≠ 0 ∧
    cross (⟨1, 0, 0⟩ - ⟨0, 0, 0⟩ : V3 ℝ) (⟨1, 1, 0⟩ - ⟨0, 0, 0⟩) ≠ 0 := by
  refine ⟨by simp [dot], by simp [dot], ?_⟩
  intro h
  have := congrArg V3.z h
  simp [cross] at this

/-- **C31** `frame_of_plane`: orthonormal and right-handed if the vectors from the centre to the first point and to
the point in the middle of the list are not parallel. Missing part of the full property: other plane point sets, where
it fails (`C31_parallelogram_false`). -/
theorem C31_plane_partial {coords : List (V3 ℝ)} {p q : V3 ℝ} (hp : coords[0]? = some p)
    (hq : coords[coords.length / 2]? = some q) (h : cross (p - centroid coords) (q - centroid coords) ≠ 0) :
    ∃ F, frameOfPlane coords = some (centroid coords, F) ∧ IsFrame F ∧ Along F.i (p - centroid coords) ∧
      Along F.k (cross (p - centroid coords) (q - centroid coords)) := by
  obtain ⟨F, h1, h2, h3, h4⟩ := surfaceFrame_spec h
  exact ⟨F, by rw [frameOfPlane, hp, Option.bind_some, hq, Option.bind_some, h1, Option.map_some], h2, h3, h4⟩

/-- A triangle. -/
example : (centroid [⟨0, 0, 0⟩, ⟨3, 0, 0⟩, ⟨0, 3, 0⟩] = ⟨1, 1, 0⟩) ∧
    cross ((⟨0, 0, 0⟩ : V3 ℝ) - ⟨1, 1, 0⟩) (⟨3, 0, 0⟩ - ⟨1, 1, 0⟩) ≠ 0 := by
  constructor
  · ext <;> simp [centroid]
  · intro h
    have := congrArg V3.z h
    simp [cross] at this

/-- **C31** `frame_of_plane` fails for every parallelogram: the point in the middle of the list is opposite to the first
one, so both vectors from the centre are parallel. -/
theorem C31_parallelogram_false (a u v : V3 ℝ) : frameOfPlane [a, a + u, a + u + v, a + v] = none := by
  have hc : centroid [a, a + u, a + u + v, a + v] = a + (1 / 2 : ℝ) • (u + v) := by
    ext <;> simp [centroid] <;> ring
  have e1 : a - centroid [a, a + u, a + u + v, a + v] = (-(1 / 2) : ℝ) • (u + v) := by
    rw [hc]; ext <;> simp
  have e2 : a + u + v - centroid [a, a + u, a + u + v, a + v] = (1 / 2 : ℝ) • (u + v) := by
    rw [hc]; ext <;> simp <;> ring
  simp only [frameOfPlane, List.length_cons, List.length_nil]
  change (some a).bind _ = none
  rw [Option.bind_some]
  change ((some (a + u + v)).bind _) = none
  rw [Option.bind_some, e1, e2]
  unfold surfaceFrame
  have key : ∀ e1 e2 : V3 ℝ, normalize ((-(1 / 2) : ℝ) • (u + v)) = some e1 →
      normalize ((1 / 2 : ℝ) • (u + v)) = some e2 → normalize (cross e1 e2) = none := by
    intro x y hx hy
    have h1 : ∃ s : ℝ, x = s • (u + v) := by
      unfold normalize at hx
      split at hx
      · cases hx
      · cases Option.some.inj hx
        exact ⟨1 / vnorm ((-(1 / 2) : ℝ) • (u + v)) * -(1 / 2), by ext <;> simp <;> ring⟩
    have h2 : ∃ s : ℝ, y = s • (u + v) := by
      unfold normalize at hy
      split at hy
      · cases hy
      · cases Option.some.inj hy
        exact ⟨1 / vnorm ((1 / 2 : ℝ) • (u + v)) * (1 / 2), by ext <;> simp <;> ring⟩
    obtain ⟨s, rfl⟩ := h1
    obtain ⟨t, rfl⟩ := h2
    have : cross (s • (u + v)) (t • (u + v)) = 0 := by
      ext <;> simp [cross] <;> ring
    rw [this, normalize_zero]
  cases h1 : normalize ((-(1 / 2) : ℝ) • (u + v)) with
  | none => rfl
  | some x =>
    cases h2 : normalize ((1 / 2 : ℝ) • (u + v)) with
    | none => rfl
    | some y => simp [key x y h1 h2]

theorem argmin3_spec (a b c : ℝ) :
    (argmin3 a b c = 0 ∧ a ≤ b ∧ a ≤ c) ∨ (argmin3 a b c = 1 ∧ b ≤ a ∧ b ≤ c) ∨ (argmin3 a b c = 2 ∧ c ≤ a ∧ c ≤ b) := by
  unfold argmin3
  by_cases h1 : a ≤ b ∧ a ≤ c
  · rw [if_pos h1]; exact Or.inl ⟨rfl, h1⟩
  · rw [if_neg h1]
    by_cases h2 : b ≤ c
    · rw [if_pos h2]
      refine Or.inr (Or.inl ⟨rfl, ?_, h2⟩)
      by_contra h3
      push Not at h3
      exact h1 ⟨h3.le, h3.le.trans h2⟩
    · rw [if_neg h2]
      push Not at h2
      refine Or.inr (Or.inr ⟨rfl, ?_, h2.le⟩)
      by_contra h3
      push Not at h3
      exact h1 ⟨(h3.trans h2).le, h3.le⟩

theorem lineFrameAuto_spec {a b : V3 ℝ} (h : b - a ≠ 0) :
    ∃ F, lineFrameAuto a b = some F ∧ IsFrame F ∧ Along F.i (b - a) := by
  obtain ⟨e1, h1, h1', hal⟩ := normalize_some h
  rw [lineFrameAuto, h1, Option.bind_some]
  set e := eye3 (argmin3 |e1.x| |e1.y| |e1.z|) with he
  have hee : dot e e = 1 ∧ dot e e1 * dot e e1 * 3 ≤ 1 := by
    have hx := abs_mul_abs_self e1.x
    have hy := abs_mul_abs_self e1.y
    have hz := abs_mul_abs_self e1.z
    have hax := abs_nonneg e1.x
    have hay := abs_nonneg e1.y
    have haz := abs_nonneg e1.z
    have hs : e1.x * e1.x + e1.y * e1.y + e1.z * e1.z = 1 := h1'
    rcases argmin3_spec |e1.x| |e1.y| |e1.z| with ⟨h0, h2, h3⟩ | ⟨h0, h2, h3⟩ | ⟨h0, h2, h3⟩ <;> rw [he, h0] <;>
      simp only [eye3, dot] <;> refine ⟨by norm_num, ?_⟩ <;> ring_nf
    · have := mul_self_le_mul_self hax h2
      have := mul_self_le_mul_self hax h3
      nlinarith
    · have := mul_self_le_mul_self hay h2
      have := mul_self_le_mul_self hay h3
      nlinarith
    · have := mul_self_le_mul_self haz h2
      have := mul_self_le_mul_self haz h3
      nlinarith
  have hne : e - dot e e1 • e1 ≠ 0 := by
    intro h0
    have h2 : dot (e - dot e e1 • e1) (e - dot e e1 • e1) = dot e e - dot e e1 * dot e e1 * (2 - dot e1 e1) := by
      simp only [dot, sub_x, sub_y, sub_z, smul_x, smul_y, smul_z]; ring
    rw [h0, hee.1, h1'] at h2
    simp only [dot, zero_x, zero_y, zero_z] at h2
    have := hee.2
    simp only [dot] at this
    nlinarith
  obtain ⟨e3, h3, h3', c, hc, rfl⟩ := normalize_some hne
  refine ⟨⟨e1, cross (c • (e - dot e e1 • e1)) e1, c • (e - dot e e1 • e1)⟩, by simp only [h3, Option.map_some], ?_, hal⟩
  apply frame_of h1' h3'
  have : dot e1 (c • (e - dot e e1 • e1)) = c * (dot e e1 * (1 - dot e1 e1)) := by
    simp only [dot, sub_x, sub_y, sub_z, smul_x, smul_y, smul_z]; ring
  rw [this, h1']; ring

theorem lineFrameRef_spec {a b r : V3 ℝ} (h : cross (b - a) (r - a) ≠ 0) :
    ∃ F, lineFrameRef a b r = some F ∧ IsFrame F ∧ Along F.i (b - a) ∧ dot F.j (r - a) = 0 ∧ 0 < dot F.k (r - a) := by
  have hu : b - a ≠ 0 := by
    intro h0; rw [h0] at h; apply h; ext <;> simp [cross]
  obtain ⟨e1, h1, h1', s, hs, rfl⟩ := normalize_some hu
  rw [lineFrameRef, h1, Option.bind_some]
  set e1 := s • (b - a) with he1
  set k := r - a with hk
  have hne : k - dot e1 k • e1 ≠ 0 := by
    intro h0
    apply h
    have hx := congrArg V3.x h0
    have hy := congrArg V3.y h0
    have hz := congrArg V3.z h0
    simp only [sub_x, sub_y, sub_z, smul_x, smul_y, smul_z, zero_x, zero_y, zero_z] at hx hy hz
    have ex : k.x = dot e1 k * e1.x := by linarith
    have ey : k.y = dot e1 k * e1.y := by linarith
    have ez : k.z = dot e1 k * e1.z := by linarith
    generalize dot e1 k = d at ex ey ez
    ext <;> simp only [cross, zero_x, zero_y, zero_z, ex, ey, ez, he1, smul_x, smul_y, smul_z] <;> ring
  obtain ⟨e3, h3, h3', c, hc, rfl⟩ := normalize_some hne
  refine ⟨⟨e1, cross (c • (k - dot e1 k • e1)) e1, c • (k - dot e1 k • e1)⟩, by simp only [h3, Option.map_some], ?_,
    ⟨s, hs, he1⟩, ?_, ?_⟩
  · apply frame_of h1' h3'
    have : dot e1 (c • (k - dot e1 k • e1)) = c * (dot e1 k * (1 - dot e1 e1)) := by
      simp only [dot, sub_x, sub_y, sub_z, smul_x, smul_y, smul_z]; ring
    rw [this, h1']; ring
  · simp only [dot, cross, sub_x, sub_y, sub_z, smul_x, smul_y, smul_z]; ring
  · have h5 := dot_self_pos hne
    have : dot (c • (k - dot e1 k • e1)) k = c * (dot (k - dot e1 k • e1) (k - dot e1 k • e1) +
        dot e1 k * dot e1 k * (1 - dot e1 e1)) := by
      simp only [dot, sub_x, sub_y, sub_z, smul_x, smul_y, smul_z]; ring
    change 0 < dot (c • (k - dot e1 k • e1)) k
    rw [this, h1', sub_self, mul_zero, add_zero]
    exact mul_pos hc h5

/-- The ends of a line. -/
def LineOf (coords : List (V3 ℝ)) (row : List Nat) (a b : V3 ℝ) : Prop :=
  ∃ i j, row.head? = some i ∧ row.getLast? = some j ∧ coords[i]? = some a ∧ coords[j]? = some b

theorem lineEnds_of {coords : List (V3 ℝ)} {row : List Nat} {a b : V3 ℝ} (h : LineOf coords row a b) :
    lineEnds coords row = some (a, b) := by
  obtain ⟨i, j, h1, h3, h4, h5⟩ := h
  rw [List.head?_eq_getElem?] at h1
  rw [List.getLast?_eq_getElem?] at h3
  simp [lineEnds, h1, h3, h4, h5]

/-- **C31** frames of lines without references: one for each line of non-zero length, orthonormal and right-handed, the
first axis from the first to the last node. -/
theorem C31_lines_auto {coords : List (V3 ℝ)} {topo : Topo} {ends : List Nat → V3 ℝ × V3 ℝ}
    (h : ∀ row ∈ topo, LineOf coords row (ends row).1 (ends row).2 ∧ (ends row).1 ≠ (ends row).2) :
    ∃ Fs, framesOfLines coords topo .auto = some Fs ∧ Fs.length = topo.length ∧
      ∀ (c : Nat) (row : List Nat) (F : Frame), topo[c]? = some row → Fs[c]? = some F →
        IsFrame F ∧ Along F.i ((ends row).2 - (ends row).1) := by
  apply mapM_exists (P := fun _ row F => IsFrame F ∧ Along F.i ((ends row).2 - (ends row).1))
  intro i row hr
  obtain ⟨h1, h2⟩ := h row (List.mem_of_getElem? hr)
  have hne : (ends row).2 - (ends row).1 ≠ 0 := by
    intro h0
    apply h2
    have hx := congrArg V3.x h0
    have hy := congrArg V3.y h0
    have hz := congrArg V3.z h0
    simp only [sub_x, sub_y, sub_z, zero_x, zero_y, zero_z] at hx hy hz
    ext <;> linarith
  obtain ⟨F, hF, hF'⟩ := lineFrameAuto_spec hne
  exact ⟨F, by rw [lineEnds_of h1]; exact hF, hF'⟩

/-- **C31** frames of lines with a reference point for each line: if no reference point is on its line, the frames
are orthonormal and right-handed, the first axis along the line, and the reference point is in the half plane of the
first and (the positive side of) the third axis. A single point is used for all lines. -/
theorem C31_lines_ref {coords : List (V3 ℝ)} {topo : Topo} {ends : List Nat → V3 ℝ × V3 ℝ} {refZ : RefZ}
    {ref : Nat → V3 ℝ} (hauto : refZ ≠ .auto) (hr1 : ∀ r, refZ = .one r → ∀ c, ref c = r)
    (hr2 : ∀ rs, refZ = .each rs → rs = (List.range topo.length).map ref)
    (h : ∀ (c : Nat) (row : List Nat), topo[c]? = some row → LineOf coords row (ends row).1 (ends row).2 ∧
      cross ((ends row).2 - (ends row).1) (ref c - (ends row).1) ≠ 0) :
    ∃ Fs, framesOfLines coords topo refZ = some Fs ∧ Fs.length = topo.length ∧
      ∀ (c : Nat) (row : List Nat) (F : Frame), topo[c]? = some row → Fs[c]? = some F →
        IsFrame F ∧ Along F.i ((ends row).2 - (ends row).1) ∧
        dot F.j (ref c - (ends row).1) = 0 ∧ 0 < dot F.k (ref c - (ends row).1) := by
  have key : ∀ (c : Nat) (row : List Nat), topo[c]? = some row → ∃ F,
      ((lineEnds coords row).bind fun e => lineFrameRef e.1 e.2 (ref c)) = some F ∧ IsFrame F ∧
      Along F.i ((ends row).2 - (ends row).1) ∧
        dot F.j (ref c - (ends row).1) = 0 ∧ 0 < dot F.k (ref c - (ends row).1) := by
    intro c row hc
    obtain ⟨h1, h2⟩ := h c row hc
    obtain ⟨F, hF, hF'⟩ := lineFrameRef_spec h2
    exact ⟨F, by rw [lineEnds_of h1]; exact hF, hF'⟩
  match refZ, hauto with
  | .one r, _ =>
    apply mapM_exists (P := fun c row F => IsFrame F ∧ Along F.i ((ends row).2 - (ends row).1) ∧
      dot F.j (ref c - (ends row).1) = 0 ∧ 0 < dot F.k (ref c - (ends row).1))
    intro c row hc
    obtain ⟨F, h1, h2⟩ := key c row hc
    rw [hr1 r rfl c] at h1
    exact ⟨F, h1, h2⟩
  | .each rs, _ =>
    have hrs := hr2 rs rfl
    obtain ⟨Fs, h1, h2, h3⟩ := mapM_exists (l := topo.zipIdx)
      (P := fun c x F => IsFrame F ∧ Along F.i ((ends x.1).2 - (ends x.1).1) ∧
        dot F.j (ref c - (ends x.1).1) = 0 ∧ 0 < dot F.k (ref c - (ends x.1).1))
      (f := fun x => (lineEnds coords x.1).bind fun e => (rs[x.2]?).bind fun r => lineFrameRef e.1 e.2 r) (by
        rintro c ⟨row, k⟩ hx
        rw [List.getElem?_zipIdx] at hx
        obtain ⟨row', hrow, he⟩ := Option.map_eq_some_iff.1 hx
        simp only [Nat.zero_add, Prod.mk.injEq] at he
        obtain ⟨rfl, rfl⟩ := he
        obtain ⟨F, f1, f2⟩ := key c row' hrow
        refine ⟨F, ?_, f2⟩
        have hlt : c < topo.length := (List.getElem?_eq_some_iff.1 hrow).1
        have : rs[c]? = some (ref c) := by
          rw [hrs, List.getElem?_map, List.getElem?_range hlt]; rfl
        simp only [this]
        exact f1)
    refine ⟨Fs, h1, by rw [h2, List.length_zipIdx], ?_⟩
    intro c row F hc hF
    exact h3 c (row, c) F (by rw [List.getElem?_zipIdx, hc]; simp) hF

/-- A line along x, seen from a point above it. -/
example : LineOf [⟨0, 0, 0⟩, ⟨2, 0, 0⟩] [0, 1] ⟨0, 0, 0⟩ ⟨2, 0, 0⟩ ∧ (⟨0, 0, 0⟩ : V3 ℝ) ≠ ⟨2, 0, 0⟩ ∧
    cross ((⟨2, 0, 0⟩ : V3 ℝ) - ⟨0, 0, 0⟩) (⟨1, 0, 1⟩ - ⟨0, 0, 0⟩) ≠ 0 := by
  refine ⟨⟨0, 1, rfl, rfl, rfl, rfl⟩, ?_, ?_⟩
  · intro h; have := congrArg V3.x h; norm_num at this
  · intro h; have := congrArg V3.y h; simp [cross] at this

/-- **C31** the docstring of `frames_of_lines` says that without references local z axes lean towards global z; for a
line along global x the local z axis is global y. -/
theorem C31_auto_z_false {L : ℝ} (h : 0 < L) : ∃ F, lineFrameAuto ⟨0, 0, 0⟩ ⟨L, 0, 0⟩ = some F ∧
    F.k = ⟨0, 1, 0⟩ ∧ dot F.k ⟨0, 0, 1⟩ = 0 := by
  have hd : (⟨L, 0, 0⟩ : V3 ℝ) - ⟨0, 0, 0⟩ ≠ 0 := by
    intro h0; have := congrArg V3.x h0; simp at this; exact h.ne' this
  obtain ⟨e1, h1, h1', s, hs, he⟩ := normalize_some hd
  have hy : e1.y = 0 := by rw [he]; simp
  have hz : e1.z = 0 := by rw [he]; simp
  have hx : 0 < e1.x := by rw [he]; simp; positivity
  have hx1 : e1.x = 1 := by
    simp only [dot, hy, hz] at h1'
    nlinarith
  have hm : argmin3 |e1.x| |e1.y| |e1.z| = 1 := by
    rw [hx1, hy, hz]; simp [argmin3]
  have hv : (⟨0, 1, 0⟩ : V3 ℝ) - dot ⟨0, 1, 0⟩ e1 • e1 = ⟨0, 1, 0⟩ := by
    ext <;> simp [dot, hy]
  have hn : normalize (⟨0, 1, 0⟩ : V3 ℝ) = some ⟨0, 1, 0⟩ := by
    rw [normalize, if_neg (by intro h0; have := congrArg V3.y h0; simp at this)]
    congr 1
    ext <;> simp [vnorm, dot]
  refine ⟨⟨e1, cross ⟨0, 1, 0⟩ e1, ⟨0, 1, 0⟩⟩, ?_, rfl, by simp [dot]⟩
  rw [lineFrameAuto, h1, Option.bind_some, hm]
  simp only [eye3]
  rw [hv, hn]
  rfl

/-! ## C32 -/

section
variable {K : Type} [LinearOrder K]

theorem argminFrom_spec (l : List K) (i : Nat) : l ≠ [] → ∃ j a, argminFrom l i = some (j, a) ∧ i ≤ j ∧
    l[j - i]? = some a ∧ (∀ b ∈ l, a ≤ b) ∧ ∀ (k : Nat) (b : K), k < j - i → l[k]? = some b → a < b := by
  induction l generalizing i with
  | nil => intro h; exact absurd rfl h
  | cons x l ih =>
    intro _
    by_cases hl : l = []
    · subst hl
      exact ⟨i, x, rfl, le_refl _, by simp, by simp, by intro k b hk; omega⟩
    · obtain ⟨j, a, h1, h2, h3, h4, h5⟩ := ih (i + 1) hl
      rw [argminFrom, h1]
      simp only
      by_cases hx : x ≤ a
      · rw [if_pos hx]
        refine ⟨i, x, rfl, le_refl _, by simp, ?_, by intro k b hk; omega⟩
        intro b hb
        rcases List.mem_cons.1 hb with rfl | hb
        · exact le_refl _
        · exact hx.trans (h4 b hb)
      · rw [if_neg hx]
        push Not at hx
        refine ⟨j, a, rfl, by omega, ?_, ?_, ?_⟩
        · rw [show j - i = (j - (i + 1)) + 1 by omega, List.getElem?_cons_succ]; exact h3
        · intro b hb
          rcases List.mem_cons.1 hb with rfl | hb
          · exact hx.le
          · exact h4 b hb
        · intro k b hk hb
          cases k with
          | zero => simp at hb; subst hb; exact hx
          | succ k =>
            rw [List.getElem?_cons_succ] at hb
            exact h5 k b (by omega) hb

theorem argmaxFrom_spec (l : List K) (i : Nat) : l ≠ [] → ∃ j a, argmaxFrom l i = some (j, a) ∧ i ≤ j ∧
    l[j - i]? = some a ∧ (∀ b ∈ l, b ≤ a) ∧ ∀ (k : Nat) (b : K), k < j - i → l[k]? = some b → b < a := by
  induction l generalizing i with
  | nil => intro h; exact absurd rfl h
  | cons x l ih =>
    intro _
    by_cases hl : l = []
    · subst hl
      exact ⟨i, x, rfl, le_refl _, by simp, by simp, by intro k b hk; omega⟩
    · obtain ⟨j, a, h1, h2, h3, h4, h5⟩ := ih (i + 1) hl
      rw [argmaxFrom, h1]
      simp only
      by_cases hx : a ≤ x
      · rw [if_pos hx]
        refine ⟨i, x, rfl, le_refl _, by simp, ?_, by intro k b hk; omega⟩
        intro b hb
        rcases List.mem_cons.1 hb with rfl | hb
        · exact le_refl _
        · exact (h4 b hb).trans hx
      · rw [if_neg hx]
        push Not at hx
        refine ⟨j, a, rfl, by omega, ?_, ?_, ?_⟩
        · rw [show j - i = (j - (i + 1)) + 1 by omega, List.getElem?_cons_succ]; exact h3
        · intro b hb
          rcases List.mem_cons.1 hb with rfl | hb
          · exact hx.le
          · exact h4 b hb
        · intro k b hk hb
          cases k with
          | zero => simp at hb; subst hb; exact hx
          | succ k =>
            rw [List.getElem?_cons_succ] at hb
            exact h5 k b (by omega) hb

end

example : argmin ([3, 1, 2, 1] : List ℚ) = some 1 ∧ argmax ([3, 1, 3] : List ℚ) = some 0 := by decide +kernel

/-- The Euclidean distance. -/
noncomputable def dist3 (p q : V3 ℝ) : ℝ := Real.sqrt ((p.x - q.x) ^ 2 + (p.y - q.y) ^ 2 + (p.z - q.z) ^ 2)

theorem vnorm_sub (p q : V3 ℝ) : vnorm (p - q) = dist3 p q := by
  simp only [vnorm, dist3, dot, sub_x, sub_y, sub_z, sq]

theorem dist3_comm (p q : V3 ℝ) : dist3 p q = dist3 q p := by
  unfold dist3; congr 1; ring

/-- `i` is the number of a point of the cloud at minimal distance from the target. -/
structure IsNearest (coords : List (V3 ℝ)) (p : V3 ℝ) (i : Nat) : Prop where
  ex : ∃ q, coords[i]? = some q ∧ ∀ r ∈ coords, dist3 q p ≤ dist3 r p

/-- `i` is the number of a point of the cloud at maximal distance from the target. -/
structure IsFurthest (coords : List (V3 ℝ)) (p : V3 ℝ) (i : Nat) : Prop where
  ex : ∃ q, coords[i]? = some q ∧ ∀ r ∈ coords, dist3 r p ≤ dist3 q p

/-- **C32** the closest point to a single target: minimal distance, and the first one at this distance. -/
theorem C32_closest {coords : List (V3 ℝ)} (h : coords ≠ []) (p : V3 ℝ) :
    ∃ i q, closestPoint coords p = some i ∧ coords[i]? = some q ∧ (∀ r ∈ coords, dist3 q p ≤ dist3 r p) ∧
      ∀ (k : Nat) (r : V3 ℝ), k < i → coords[k]? = some r → dist3 q p < dist3 r p := by
  have hl : distancesFrom coords p ≠ [] := by simpa [distancesFrom] using h
  obtain ⟨j, a, h1, _, h3, h4, h5⟩ := argminFrom_spec (distancesFrom coords p) 0 hl
  simp only [Nat.sub_zero] at h3 h5
  simp only [distancesFrom, List.getElem?_map, vnorm_sub] at h3 h5
  obtain ⟨q, hq, rfl⟩ := Option.map_eq_some_iff.1 h3
  refine ⟨j, q, by rw [closestPoint, argmin, h1]; rfl, hq, ?_, ?_⟩
  · intro r hr
    have := h4 (vnorm (r - p)) (List.mem_map.2 ⟨r, hr, rfl⟩)
    rwa [vnorm_sub] at this
  · intro k r hk hr
    exact h5 k _ hk (by rw [hr]; rfl)

theorem furthest_row {coords : List (V3 ℝ)} (h : coords ≠ []) (p : V3 ℝ) {d : List ℝ}
    (hd : d = coords.map fun q => dist3 q p) : ∃ i, argmax d = some i ∧ IsFurthest coords p i := by
  have hl : d ≠ [] := by rw [hd]; simpa using h
  obtain ⟨j, a, h1, _, h3, h4, _⟩ := argmaxFrom_spec d 0 hl
  rw [hd] at h3 h4
  simp only [Nat.sub_zero, List.getElem?_map] at h3
  obtain ⟨q, hq, rfl⟩ := Option.map_eq_some_iff.1 h3
  refine ⟨j, by rw [argmax, h1]; rfl, ⟨q, hq, ?_⟩⟩
  intro r hr
  exact h4 (dist3 r p) (List.mem_map.2 ⟨r, hr, rfl⟩)

/-- **C32** the furthest point from a single target. -/
theorem C32_furthest {coords : List (V3 ℝ)} (h : coords ≠ []) (p : V3 ℝ) :
    ∃ i, furthestPoint coords p = some i ∧ IsFurthest coords p i :=
  furthest_row h p (by simp only [distancesFrom, vnorm_sub])

/-- **C32** the furthest points from several targets: entry `k` answers target `k`. -/
theorem C32_furthest_many {coords targets : List (V3 ℝ)} (h : coords ≠ []) :
    ∃ R, furthestPoints coords targets = some R ∧ R.length = targets.length ∧
      ∀ (k : Nat) (p : V3 ℝ) (i : Nat), targets[k]? = some p → R[k]? = some i → IsFurthest coords p i := by
  obtain ⟨R, h1, h2, h3⟩ := mapM_exists (l := distanceMatrix targets coords) (f := argmax)
    (P := fun k _ i => ∀ p, targets[k]? = some p → IsFurthest coords p i) (by
      intro k d hd
      rw [distanceMatrix, List.getElem?_map] at hd
      obtain ⟨p, hp, rfl⟩ := Option.map_eq_some_iff.1 hd
      obtain ⟨i, hi, hi'⟩ := furthest_row h p (d := coords.map fun b => vnorm (p - b))
        (by apply List.map_congr_left; intro q _; rw [vnorm_sub, dist3_comm])
      refine ⟨i, hi, ?_⟩
      intro p' hp'
      rw [hp] at hp'
      exact Option.some.inj hp' ▸ hi')
  refine ⟨R, h1, by rw [h2]; simp [distanceMatrix], ?_⟩
  intro k p i hp hi
  exact h3 k _ i (by rw [distanceMatrix, List.getElem?_map, hp]; rfl) hi p hp

/-- **C32** the closest points to several targets, assuming that the external KD-tree answers single queries
correctly: entry `k` answers target `k`. -/
theorem C32_closest_many {query : List (V3 ℝ) → V3 ℝ → Option Nat}
    (hq : ∀ cloud p, cloud ≠ [] → ∃ i, query cloud p = some i ∧ IsNearest cloud p i) {coords targets : List (V3 ℝ)}
    (h : coords ≠ []) :
    ∃ R, closestPoints query coords targets = some R ∧ R.length = targets.length ∧
      ∀ (k : Nat) (p : V3 ℝ) (i : Nat), targets[k]? = some p → R[k]? = some i → IsNearest coords p i :=
  mapM_exists (P := fun _ p i => IsNearest coords p i) fun _ p _ => hq coords p h

/-- The assumption on the tree can be met. -/
example : ∀ cloud p, cloud ≠ [] → ∃ i, closestPoint cloud p = some i ∧ IsNearest cloud p i := by
  intro cloud p h
  obtain ⟨i, q, h1, h2, h3, _⟩ := C32_closest h p
  exact ⟨i, h1, ⟨q, h2, h3⟩⟩

end PM
