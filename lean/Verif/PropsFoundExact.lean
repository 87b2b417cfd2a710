import Verif.PropsLinePoints
import Verif.PropsStl
import Verif.PropsExtremes
import Verif.PropsCollect

/-!
# C82, C87, C88: exact accounts

Ids of line cells that are not row numbers, labels of vertices that do not exist, and targets in frames with other origins.
-/

namespace PM

/-! ## C82 -/

section
variable {K : Type} [Field K] [DecidableEq K]

/-- **C82** (exact account) for any ids: of the cells given, those that are ids of the block are used, as row numbers. -/
theorem C82_exact {ord : List (Nat × V3 K) → List (Nat × V3 K)} (hord : ∀ w, (ord w).Perm w) {lco : List K}
    {coords : List (V3 K)} {ids : List Nat} {topo : Topo} {cells sel : List Nat} {points : List K} {rng : Option (K × K)}
    (hs : sel = cells.filter fun c => decide (c ∈ ids))
    (hnode : ∀ cell ∈ topo, cell ≠ [] ∧ ∀ n ∈ cell, n < coords.length)
    (hrng : (rng.getD (0, 1)).1 ≠ (rng.getD (0, 1)).2) :
    (sel = [] → ∀ fl, linePoints ord lco coords ids topo (some points) (some cells) rng fl = some .empty) ∧
    ((∃ c ∈ sel, topo.length ≤ c) → ∀ fl, linePoints ord lco coords ids topo (some points) (some cells) rng fl = none) ∧
    (sel ≠ [] → (∀ c ∈ sel, c < topo.length) →
      ∃ r, linePoints ord lco coords ids topo (some points) (some cells) rng false = some (.grid r) ∧
        linePoints ord lco coords ids topo (some points) (some cells) rng true = some (.flat r.flatten) ∧
        LineEval coords topo sel points (rng.getD (0, 1)) r) := by
  have hfil : (cells.filter fun c => ids.contains c) = sel := by
    rw [hs]
    congr 1
    funext c
    rw [List.contains_eq_mem]
  obtain ⟨ec, h4, h5, h6⟩ := mapM_exists (f := fun row => gather? coords row) (l := topo)
    (P := fun _ cell e => e.length = cell.length ∧ ∀ (j n : Nat), cell[j]? = some n → e[j]? = coords[n]?)
    (fun i row hi => gather?_eq_some fun n hn => (hnode row (List.mem_of_getElem? hi)).2 n hn)
  refine ⟨fun h0 fl => ?_, ?_, fun hne hin => ?_⟩
  · unfold linePoints
    rw [h4, Option.bind_some, if_neg (by simp)]
    simp only [lineCells, hfil, h0, List.isEmpty_nil, if_true, Option.bind_some]
  · rintro ⟨c, hc, hlt⟩ fl
    unfold linePoints
    rw [h4, Option.bind_some, if_neg (by simp)]
    have hne : ¬ sel.isEmpty = true := by
      rw [List.isEmpty_iff]
      rintro rfl
      cases hc
    simp only [lineCells, hfil]
    rw [if_neg hne, show gather? ec sel = none from mapM_none hc (List.getElem?_eq_none_iff.2 (by omega))]
    rfl
  · -- the rows are those of a block whose ids are the row numbers
    have hsel : ∀ fl, linePoints ord lco coords ids topo (some points) (some cells) rng fl =
        linePoints ord lco coords (List.range topo.length) topo (some points) (some sel) rng fl := by
      intro fl
      have : lineCells ids ec (some cells) = lineCells (List.range topo.length) ec (some sel) := by
        have hf : sel.filter (fun c => (List.range topo.length).contains c) = sel := by
          rw [List.filter_eq_self]
          intro c hc
          simpa using hin c hc
        simp only [lineCells, hfil, hf]
      unfold linePoints
      rw [h4, Option.bind_some, Option.bind_some, this]
      rfl
    obtain ⟨r, r1, r2, r3⟩ := C82_cells_partial hord (lco := lco) (points := points) hne hin hnode hrng
    exact ⟨r, by rw [hsel, r1], by rw [hsel, r2], r3⟩

end

/-- The second block of a mesh, with ids 1 and 2: cell 1 is answered by the second row. -/
example : linePoints id [-1, 1] [(⟨0, 0, 0⟩ : V3 ℚ), ⟨1, 0, 0⟩, ⟨2, 0, 0⟩] [1, 2] [[0, 1], [1, 2]] (some [1/2]) (some [7, 1]) none false =
    some (.grid [[⟨3/2, 0, 0⟩]]) := by decide +kernel

/-! ## C88 -/

/-- The place a target is taken for: for numbers in a frame and for vectors the origin of the frame is left out. -/
def Target.aim {K : Type} [Field K] : Target K → V3 K
  | .numbers p none => p
  | .numbers p (some G) => G.place p - G.origo
  | .vector F p => F.place p - F.origo
  | .cloud F p => F.place p

theorem Target.show_aim {K : Type} [Field K] (t : Target K) : t.show = t.aim := by
  match t with
  | .numbers p none => rfl
  | .numbers p (some G) =>
    simp only [Target.show, Target.aim, vecShow_place]
    ext <;> simp
  | .vector F p =>
    simp only [Target.show, Target.aim, vecShow_place]
    ext <;> simp
  | .cloud F p => exact pcShow_none F p

/-- **C88** (exact account) `closest` for targets in any frame: the first point at the least distance from the place the target is
taken for. -/
theorem C88_closest_exact (F : CFrame ℝ) (c : PCloud (V3 ℝ)) (hne : c.arr ≠ []) (hc : IndsOK c) (t : Target ℝ) :
    ∃ f, pcClosest F c t = some f ∧ c.arr[f.id]? = some f.x ∧ GidAt c f.id f.gid ∧
      (∀ r ∈ c.arr, dist3 (F.place f.x) t.aim ≤ dist3 (F.place r) t.aim) ∧
      ∀ (k : Nat) (r : V3 ℝ), k < f.id → c.arr[k]? = some r → dist3 (F.place f.x) t.aim < dist3 (F.place r) t.aim := by
  have := C88_closest_partial F c hne hc (.numbers t.aim none) trivial
  have e : pcClosest F c (.numbers t.aim none) = pcClosest F c t := by
    simp only [pcClosest, pcIndexOfClosest, Target.show_aim]
    rfl
  rwa [e] at this

/-- **C88** (exact account) `furthest` for targets in any frame. -/
theorem C88_furthest_exact (F : CFrame ℝ) (c : PCloud (V3 ℝ)) (hne : c.arr ≠ []) (hc : IndsOK c) (t : Target ℝ) :
    ∃ f, pcFurthest F c t = some f ∧ c.arr[f.id]? = some f.x ∧ GidAt c f.id f.gid ∧
      ∀ r ∈ c.arr, dist3 (F.place r) t.aim ≤ dist3 (F.place f.x) t.aim := by
  have := C88_furthest_partial F c hne hc (.numbers t.aim none) trivial
  have e : pcFurthest F c (.numbers t.aim none) = pcFurthest F c t := by
    simp only [pcFurthest, pcIndexOfFurthest, Target.show_aim]
    rfl
  rwa [e] at this

/-- **C88** (exact account) several targets in any frames: the points found for each of them, and their places in the cloud as indices. -/
theorem C88_many_exact (F : CFrame ℝ) (c : PCloud (V3 ℝ)) (hne : c.arr ≠ []) (hc : IndsOK c)
    (query : List (V3 ℝ) → V3 ℝ → Option Nat) (hq : ∀ cloud p, cloud ≠ [] → ∃ i, query cloud p = some i ∧ IsNearest cloud p i)
    (ts : List (Target ℝ)) :
    (∃ d inds, pcClosestMany query F c ts = some d ∧ d.inds = some inds ∧ d.arr.length = ts.length ∧ inds.length = ts.length ∧
      ∀ (k : Nat) (t : Target ℝ), ts[k]? = some t → ∃ (i : Nat) (x : V3 ℝ), inds[k]? = some (i : Int) ∧ c.arr[i]? = some x ∧ d.arr[k]? = some x ∧
        ∀ r ∈ c.arr, dist3 (F.place x) t.aim ≤ dist3 (F.place r) t.aim) ∧
    ∃ d inds, pcFurthestMany F c ts = some d ∧ d.inds = some inds ∧ d.arr.length = ts.length ∧ inds.length = ts.length ∧
      ∀ (k : Nat) (t : Target ℝ), ts[k]? = some t → ∃ (i : Nat) (x : V3 ℝ), inds[k]? = some (i : Int) ∧ c.arr[i]? = some x ∧ d.arr[k]? = some x ∧
        ∀ r ∈ c.arr, dist3 (F.place r) t.aim ≤ dist3 (F.place x) t.aim := by
  have hts : (ts.map fun t => Target.numbers t.aim none).map Target.show = ts.map Target.show := by
    rw [List.map_map]
    refine List.map_congr_left fun t _ => ?_
    rw [Function.comp_apply, Target.show_aim t]
    rfl
  obtain ⟨⟨d, i, h1, h2, h3, h4, h5⟩, d', i', g1, g2, g3, g4, g5⟩ := C88_many_partial F c hne hc query hq
    (ts.map fun t => Target.numbers t.aim none) (by
      intro t ht
      obtain ⟨t', -, rfl⟩ := List.mem_map.1 ht
      trivial)
  rw [List.length_map] at h3 h4 g3 g4
  refine ⟨⟨d, i, ?_, h2, h3, h4, fun k t hk => ?_⟩, d', i', ?_, g2, g3, g4, fun k t hk => ?_⟩
  · rw [← h1, pcClosestMany, pcClosestMany, hts]
  · exact h5 k (.numbers t.aim none) (by rw [List.getElem?_map, hk]; rfl)
  · rw [← g1, pcFurthestMany, pcFurthestMany, hts]
  · exact g5 k (.numbers t.aim none) (by rw [List.getElem?_map, hk]; rfl)

/-! ## C87 -/

/-- The vertex a label stands for: labels below zero count from the end. -/
def LabelAt {K : Type} (verts : List (V3 K)) (i : Int) (p : V3 K) : Prop :=
  ∃ k : Nat, (i = k ∨ i + verts.length = k ∧ i < 0) ∧ verts[k]? = some p

theorem pyGet_labelAt {K : Type} {verts : List (V3 K)} {i : Int} {p : V3 K} : pyGet verts i = some p ↔ LabelAt verts i p := by
  unfold pyGet LabelAt
  constructor
  · intro h
    split at h
    · exact ⟨i.toNat, .inl (by omega), h⟩
    · split at h
      · exact ⟨_, .inr ⟨by omega, by omega⟩, h⟩
      · cases h
  · rintro ⟨k, rfl | ⟨h1, h2⟩, hk⟩
    · simpa using hk
    · rw [if_neg (by omega), if_pos (by omega), h1]
      simpa using hk

/-- **C87** (exact account) which files are completed, and what is in them, for labels of any kind: labels below zero stand for
vertices counted from the end. -/
theorem C87_file_exact (verts : List (V3 ℝ)) (tris : List Tri3) :
    ((∃ t ∈ tris, ¬ ∃ a b c, LabelAt verts t.1 a ∧ LabelAt verts t.2.1 b ∧ LabelAt verts t.2.2 c ∧ Proper a b c) ∧
      writeStl verts tris = none) ∨
    ∃ lines fs, writeStl verts tris = some lines ∧ IsSolid lines fs ∧ List.Forall₂ (fun t f =>
      LabelAt verts t.1 f.a ∧ LabelAt verts t.2.1 f.b ∧ LabelAt verts t.2.2 f.c ∧ Proper f.a f.b f.c ∧ NormalOK f) tris fs := by
  by_cases hok : ∀ t ∈ tris, ∃ a b c, LabelAt verts t.1 a ∧ LabelAt verts t.2.1 b ∧ LabelAt verts t.2.2 c ∧ Proper a b c
  · right
    let g : Int → Int := fun i => if 0 ≤ i then i else i + verts.length
    have hg : ∀ i p, LabelAt verts i p → VertexAt verts (g i) p := by
      rintro i p ⟨k, h | ⟨h1, h2⟩, hk⟩
      · exact ⟨k, by simp only [g]; rw [if_pos (by omega), h], hk⟩
      · exact ⟨k, by simp only [g]; rw [if_neg (by omega), h1], hk⟩
    let G : Tri3 → Tri3 := fun t => (g t.1, g t.2.1, g t.2.2)
    obtain ⟨lines, fs, h1, h2, h3⟩ := C87_file verts (tris.map G) (by
      intro t ht
      obtain ⟨t, ht', rfl⟩ := List.mem_map.1 ht
      obtain ⟨a, b, c, ha, hb, hc, hp⟩ := hok t ht'
      exact ⟨a, b, c, hg _ _ ha, hg _ _ hb, hg _ _ hc, hp⟩)
    refine ⟨lines, fs, ?_, h2, ?_⟩
    · rw [← h1]
      unfold writeStl
      rw [List.mapM_map]
      congr 1
      refine mapM_congr' fun t ht => ?_
      obtain ⟨a, b, c, ha, hb, hc, hp⟩ := hok t ht
      simp only [Function.comp_apply, stlTriangle, G, pyGet_labelAt.2 ha, pyGet_labelAt.2 hb, pyGet_labelAt.2 hc, pyGet_vertexAt (hg _ _ ha),
        pyGet_vertexAt (hg _ _ hb), pyGet_vertexAt (hg _ _ hc)]
    · rw [List.forall₂_map_left_iff] at h3
      clear h1 h2
      induction h3 with
      | nil => exact .nil
      | @cons t f l l' h _ ih =>
        refine .cons ?_ (ih fun t ht => hok t (List.mem_cons_of_mem _ ht))
        obtain ⟨a, b, c, ha, hb, hc, hp⟩ := hok t List.mem_cons_self
        obtain ⟨e1, e2, e3, e4⟩ := h
        obtain rfl := e1.unique (hg _ _ ha)
        obtain rfl := e2.unique (hg _ _ hb)
        obtain rfl := e3.unique (hg _ _ hc)
        exact ⟨ha, hb, hc, hp, e4⟩
  · left
    push Not at hok
    obtain ⟨t, ht, hn⟩ := hok
    refine ⟨⟨t, ht, fun ⟨a, b, c, ha, hb, hc, hp⟩ => hn a b c ha hb hc hp⟩, ?_⟩
    have : stlTriangle verts t = none := by
      unfold stlTriangle
      cases h1 : pyGet verts t.1 with
      | none => rfl
      | some a =>
        cases h2 : pyGet verts t.2.1 with
        | none => rfl
        | some b =>
          cases h3 : pyGet verts t.2.2 with
          | none => rfl
          | some c =>
            have := hn a b c (pyGet_labelAt.1 h1) (pyGet_labelAt.1 h2) (pyGet_labelAt.1 h3)
            simp only [Option.bind_some, (computeNormal_eq a b c).2 this, Option.map_none]
    simp [writeStl, mapM_none ht this]

/-- The label -1 of a list of three vertices is the last of them. -/
example : LabelAt [(⟨0, 0, 0⟩ : V3 ℝ), ⟨1, 0, 0⟩, ⟨0, 1, 0⟩] (-1) ⟨0, 1, 0⟩ ∧ ∀ p, ¬ LabelAt [(⟨0, 0, 0⟩ : V3 ℝ), ⟨1, 0, 0⟩, ⟨0, 1, 0⟩] 3 p := by
  refine ⟨⟨2, .inr ⟨by simp, by omega⟩, rfl⟩, ?_⟩
  rintro p ⟨k, h | ⟨-, h⟩, hk⟩
  · have := (List.getElem?_eq_some_iff.1 hk).1
    simp at this
    omega
  · omega

end PM
