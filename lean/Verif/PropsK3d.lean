import Verif.K3d
import Verif.PropsWalk
import Verif.PropsSkin
import Verif.PropsSimplices

/-!
# C101: drawings with K3D
-/

namespace PM

/-! ## specification -/

/-- The values of an object: none without scalars; otherwise value `k` belongs to the point with the number `k`, and the range of colours
contains all values. -/
def ShowsValues (topo : Topo) (o : K3dItem) : Option (List ℝ) → Prop
  | none => o.attr = none ∧ o.range = none
  | some d => ∃ e r, o.attr = some e ∧ o.range = some r ∧ (∀ i j n, nodeAt topo i j = some n → ∃ k, nodeAt o.cells i j = some k ∧ e[k]? = d[n]?) ∧
      ∀ v ∈ e, r.1 < v ∧ v < r.2

/-- What has to be drawn of cells: lines as they are, the triangles of faces, the skin of solids. -/
def DrawnOf (k : CellKind) (topo faces T : Topo) : Prop :=
  match k.ndim with
  | 1 => T = topo
  | 2 => ∃ map, trimapOf k = some map ∧ SplitBy topo map T
  | _ => IsSkinTri faces T

/-- The objects that have to be drawn: their kinds, in order. -/
def drawnKinds (k : CellKind) (side : Option String) (edges : Bool) : List K3dKind :=
  match k.ndim with
  | 1 => [.lines]
  | 2 => (match side with
      | some s => if s.toLower = "both" then [.faces (some "front"), .faces (some "back")] else [.faces (some s)]
      | none => [.faces none]) ++ if edges then [.wire] else []
  | _ => [.faces side] ++ if edges then [.wire] else []

/-- The objects `os` are a picture of the cells `topo` between the points `x`. -/
def PictureOf (k : CellKind) (side : Option String) (edges : Bool) (scalars : Option (List ℝ)) (x : List (V3 ℝ)) (topo faces : Topo)
    (os : List K3dItem) : Prop :=
  ∃ T, DrawnOf k topo faces T ∧ os.map K3dItem.kind = drawnKinds k side edges ∧
    ∀ o ∈ os, ShowsCells x T o.pts o.cells ∧ if o.kind = .wire then o.attr = none else ShowsValues T o scalars

/-! ## proofs -/

theorem forall₂_mem_right {α β : Type} {R : α → β → Prop} {l : List α} {r : List β} (h : List.Forall₂ R l r) {b : β} (hb : b ∈ r) :
    ∃ a ∈ l, R a b := by
  induction h with
  | nil => cases hb
  | cons h1 _ ih =>
    rcases List.mem_cons.1 hb with rfl | hb
    · exact ⟨_, by simp, h1⟩
    · obtain ⟨a, ha, h2⟩ := ih hb
      exact ⟨a, by simp [ha], h2⟩

theorem forall₂_mem_left {α β : Type} {R : α → β → Prop} {l : List α} {r : List β} (h : List.Forall₂ R l r) {a : α} (ha : a ∈ l) :
    ∃ b ∈ r, R a b := by
  induction h with
  | nil => cases ha
  | cons h1 _ ih =>
    rcases List.mem_cons.1 ha with rfl | ha
    · exact ⟨_, by simp, h1⟩
    · obtain ⟨b, hb, h2⟩ := ih ha
      exact ⟨b, by simp [hb], h2⟩

theorem isTriang_nodes {p : List Nat} {part : Topo} (h : IsTriang p part) : ∀ t ∈ part, ∀ n ∈ t, n ∈ p := by
  cases h <;> simp

/-- The nodes of the skin are nodes of faces. -/
theorem skin_nodes {faces T : Topo} (h : IsSkinTri faces T) {n : Nat} (hn : UsesNode T n) : ∃ f ∈ faces, n ∈ f := by
  obtain ⟨polys, parts, h1, h2, h3⟩ := h
  obtain ⟨t, ht, hnt⟩ := hn
  obtain ⟨part, hp, htp⟩ := List.mem_flatten.1 (h3.mem_iff.1 ht)
  obtain ⟨poly, hpoly, htri⟩ := forall₂_mem_right h2 hp
  have hnp := isTriang_nodes htri t htp n hnt
  have hpos : 0 < occ polys poly := occ_pos.2 ⟨poly, hpoly, List.Perm.refl _⟩
  have := h1 poly
  have hf : occ faces poly = 1 := by
    by_contra hne
    rw [if_neg hne] at this
    omega
  obtain ⟨f, hf1, hf2⟩ := occ_pos.1 (by omega : 0 < occ faces poly)
  exact ⟨f, hf1, hf2.mem_iff.1 hnp⟩

/-- The nodes of the parts of cells are nodes of the cells. -/
theorem split_nodes {topo T : Topo} {map : List (List Nat)} (h : SplitBy topo map T) {n : Nat} (hn : UsesNode T n) : UsesNode topo n := by
  obtain ⟨t, ht, hnt⟩ := hn
  obtain ⟨e, he⟩ := List.mem_iff_getElem?.1 ht
  have hlt : e < topo.length * map.length := by rw [← h.len]; exact (List.getElem?_eq_some_iff.1 he).1
  have hpos : 0 < map.length := Nat.pos_of_ne_zero fun h0 => by rw [h0] at hlt; omega
  have hi : e / map.length < topo.length := Nat.div_lt_of_lt_mul (by rwa [Nat.mul_comm] at hlt)
  have hk : e % map.length < map.length := Nat.mod_lt _ hpos
  obtain ⟨s, h1, h2, h3⟩ := h.row _ _ _ _ (List.getElem?_eq_getElem hi) (List.getElem?_eq_getElem hk)
  rw [Nat.mul_comm, Nat.div_add_mod, he] at h1
  obtain rfl := Option.some.inj h1
  obtain ⟨j, hj⟩ := List.mem_iff_getElem?.1 hnt
  have hjm : j < map[e % map.length].length := by rw [← h2]; exact (List.getElem?_eq_some_iff.1 hj).1
  have := h3 j _ (List.getElem?_eq_getElem hjm)
  rw [hj] at this
  exact ⟨_, List.getElem_mem hi, List.mem_of_getElem? this.symm⟩

theorem k3dRange_spec {s : List ℝ} (h : s ≠ []) : ∃ r, k3dRange s = some r ∧ ∀ v ∈ s, r.1 < v ∧ v < r.2 := by
  match s, h with
  | a :: l, _ =>
    refine ⟨_, rfl, ?_⟩
    have key : ∀ (l : List ℝ) (lo hi : ℝ), (l.foldl min lo ≤ lo ∧ ∀ v ∈ l, l.foldl min lo ≤ v) ∧ (hi ≤ l.foldl max hi ∧ ∀ v ∈ l, v ≤ l.foldl max hi) := by
      intro l
      induction l with
      | nil => intro lo hi; simp
      | cons b l ih =>
        intro lo hi
        obtain ⟨⟨h1, h2⟩, h3, h4⟩ := ih (min lo b) (max hi b)
        simp only [List.foldl_cons, List.mem_cons]
        refine ⟨⟨h1.trans (min_le_left _ _), ?_⟩, (le_max_left _ _).trans h3, ?_⟩
        · rintro v (rfl | hv)
          · exact h1.trans (min_le_right _ _)
          · exact h2 v hv
        · rintro v (rfl | hv)
          · exact (le_max_right _ _).trans h3
          · exact h4 v hv
    obtain ⟨⟨h1, h2⟩, h3, h4⟩ := key l a a
    intro v hv
    rcases List.mem_cons.1 hv with rfl | hv
    · constructor <;> simp only <;> linarith
    · have := h2 v hv; have := h4 v hv
      constructor <;> simp only <;> linarith

/-- Cells with their values are what `k3dDetach` returns. -/
theorem k3dDetach_spec {x : List (V3 ℝ)} {T : Topo} (hr : ∀ n, UsesNode T n → n < x.length) {scalars : Option (List ℝ)}
    (hs : ∀ d, scalars = some d → d.length = x.length ∧ d ≠ []) :
    ∃ c a t range, k3dDetach x T scalars = some (c, a, t) ∧ k3dRanges scalars = some range ∧ ShowsCells x T c t ∧
      ∀ kind, ShowsValues T ⟨kind, c, t, a, range⟩ scalars := by
  obtain ⟨c, t, ids, h1, -, hids, hlen, hget, h2, h3, h4⟩ := C04_detach x T hr
  have h1' : detachMeshBulk x T = some (c, t) := by unfold detach at h1; exact h1
  cases scalars with
  | none => exact ⟨c, none, t, none, by simp [k3dDetach, h1'], rfl, ⟨h2, h4, h3⟩, fun _ => ⟨rfl, rfl⟩⟩
  | some d =>
    obtain ⟨hd, hne⟩ := hs d rfl
    obtain ⟨-, c', t', e, g1, g2, g3⟩ := C04_detach_variants x d T hr hd
    rw [h1] at g2
    obtain ⟨rfl, rfl⟩ := Prod.mk.inj (Option.some.inj g2)
    obtain ⟨r, r1, r2⟩ := k3dRange_spec hne
    refine ⟨c, some e, t, some r, by simp [k3dDetach, g1], by simp [k3dRanges, r1], ⟨h2, h4, h3⟩, fun _ => ⟨e, r, rfl, rfl, ?_, ?_⟩⟩
    · intro i j n hn; obtain ⟨k, u1, -, u3⟩ := g3 i j n hn; exact ⟨k, u1, u3⟩
    · intro v hv
      apply r2
      have g1' := g1
      simp only [detachMeshDataBulk, Option.bind_eq_bind] at g1'
      obtain ⟨_, _, g1'⟩ := Option.bind_eq_some_iff.1 g1'
      obtain ⟨e', he, g1'⟩ := Option.bind_eq_some_iff.1 g1'
      obtain ⟨_, _, g1'⟩ := Option.bind_eq_some_iff.1 g1'
      have : e' = e := by simpa using congrArg (fun r => r.map fun r => r.2.1) g1'
      subst this
      rw [gather?, mapM_eq_some_iff] at he
      obtain ⟨n, -, hn⟩ := forall₂_mem_right he hv
      exact List.mem_of_getElem? hn

/-- The cells of one block in a mesh can be drawn: rows of the right length with nodes among the points `x`, a skin for solids, no other cells
beneath solids. -/
structure CanDraw {D : Type} (kind : MBlock (V3 ℝ) D → CellKind) (pv : MBlock (V3 ℝ) D → PvSurf) (faces : MBlock (V3 ℝ) D → Topo)
    (m : List (MBlock (V3 ℝ) D)) (x : List (V3 ℝ)) (b : MBlock (V3 ℝ) D) (c : CData D) : Prop where
  nodes : ∀ n, UsesNode c.topo n → n < x.length
  width : (kind b).ndim = 2 → ∀ row ∈ c.topo, row.length = (kind b).nnode
  alone : (kind b).ndim = 3 → ∀ b' ∈ m, b'.cells.isSome → b.path <:+ b'.path → b' = b
  apart : (kind b).ndim = 3 → x.Nodup ∧ x ≠ []
  skin : (kind b).ndim = 3 → VtkSurface x (faces b) (pv b) ∧ ∀ f ∈ faces b, ∀ n ∈ f, n < x.length

theorem under_alone {P D : Type} {m : List (MBlock P D)} {b : MBlock P D} {c : CData D} (hm : (m.map MBlock.path).Nodup) (hb : b ∈ m)
    (hc : b.cells = some c) (hflat : ∀ b' ∈ m, b'.cells.isSome → b.path <:+ b'.path → b' = b) : cellsUnder m b.path = [(b, c)] := by
  have hmem : ∀ x, x ∈ cellsUnder m b.path ↔ x = (b, c) := by
    rintro ⟨b', c'⟩
    rw [mem_cellsUnder]
    constructor
    · rintro ⟨g1, g2, g3⟩
      obtain rfl := hflat b' g1 (by rw [g3]; rfl) g2
      rw [hc] at g3
      rw [Option.some.inj g3]
    · intro h
      obtain ⟨rfl, rfl⟩ := Prod.mk.inj h
      exact ⟨hb, List.suffix_rfl, hc⟩
  have hnd : (cellsUnder m b.path).Nodup := (hm.sublist (cellsUnder_paths m b.path)).of_map _
  exact List.perm_singleton.1 ((List.perm_ext_iff_of_nodup hnd (List.nodup_singleton _)).2 fun x => by rw [hmem]; simp)

theorem k3dSides_eq (k : CellKind) (side : Option String) (edges : Bool) (h : k.ndim = 2) :
    drawnKinds k side edges = k3dSides side ++ if edges then [.wire] else [] := by
  unfold drawnKinds k3dSides
  rw [h]
  cases side <;> rfl

theorem wire_not_side (side : Option String) : K3dKind.wire ∉ k3dSides side := by
  unfold k3dSides
  cases side with
  | none => simp
  | some s => simp only; split <;> simp

theorem k3dBlock_spec {D : Type} {query : List (V3 ℝ) → V3 ℝ → Option Nat} (hq : NearestQuery query) {kind : MBlock (V3 ℝ) D → CellKind}
    {pv : MBlock (V3 ℝ) D → PvSurf} {faces : MBlock (V3 ℝ) D → Topo} (side : MBlock (V3 ℝ) D → Option String) (edges : Bool)
    {m : List (MBlock (V3 ℝ) D)} (hm : MeshTree m) {b : MBlock (V3 ℝ) D} {c : CData D} (hb : b ∈ m) (hc : b.cells = some c)
    {s : List Nat} (hs : sourcePath m b.path = some s) {x : List (V3 ℝ)} (hx : pointsBeneath m s = x) (hd : CanDraw kind pv faces m x b c)
    {scalars : Option (List ℝ)} (hv : ∀ d, scalars = some d → d.length = x.length ∧ d ≠ []) {range : Option (ℝ × ℝ)}
    (hr : k3dRanges scalars = some range) :
    ∃ os, k3dBlock query kind pv side edges scalars range m x b c = some os ∧
      PictureOf (kind b) (side b) edges scalars x c.topo (faces b) os := by
  have hn3 : (kind b).ndim = 1 ∨ (kind b).ndim = 2 ∨ (kind b).ndim = 3 := by cases kind b <;> simp [CellKind.ndim]
  rcases hn3 with h | h | h
  · obtain ⟨c', a, t, range', h1, h2, h3, h4⟩ := k3dDetach_spec hd.nodes hv
    rw [hr] at h2
    obtain rfl := Option.some.inj h2
    have h5 : k3dBlock query kind pv side edges scalars range m x b c = some [⟨.lines, c', t, a, range⟩] := by
      simp only [k3dBlock, h, h1, Option.map_some]
    refine ⟨_, h5, c.topo, by simp [DrawnOf, h], by simp [drawnKinds, h], ?_⟩
    intro o ho
    obtain rfl := List.mem_singleton.1 ho
    exact ⟨h3, by simpa using h4 _⟩
  · obtain ⟨map, hmap⟩ : ∃ map, trimapOf (kind b) = some map := by
      revert h; cases kind b <;> simp [CellKind.ndim, trimapOf]
    obtain ⟨T, hT, hsp⟩ := C89_triangles (kind b) map hmap c.topo (hd.width h)
    obtain ⟨c', a, t, range', h1, h2, h3, h4⟩ := k3dDetach_spec (fun n hn => hd.nodes n (split_nodes hsp hn)) hv
    rw [hr] at h2
    obtain rfl := Option.some.inj h2
    have h5 : k3dBlock query kind pv side edges scalars range m x b c = some (((k3dSides (side b)).map fun k => ⟨k, c', t, a, range⟩) ++
        if edges then [⟨.wire, c', t, none, none⟩] else []) := by
      simp only [k3dBlock, h, hT, Option.bind_some, h1, Option.map_some]
    refine ⟨_, h5, T, by simpa [DrawnOf, h] using ⟨map, hmap, hsp⟩, ?_, ?_⟩
    · rw [k3dSides_eq _ _ _ h, List.map_append, List.map_map]
      congr 1
      · simp [Function.comp_def]
      · split <;> rfl
    · intro o ho
      rcases List.mem_append.1 ho with ho | ho
      · obtain ⟨k, hk, rfl⟩ := List.mem_map.1 ho
        have : k ≠ .wire := fun h => wire_not_side _ (h ▸ hk)
        exact ⟨h3, by rw [if_neg this]; exact h4 k⟩
      · split at ho
        · obtain rfl := List.mem_singleton.1 ho
          exact ⟨h3, by simp⟩
        · cases ho
  · obtain ⟨hnd, hne⟩ := hd.apart h
    obtain ⟨hvtk, hf⟩ := hd.skin h
    obtain ⟨T, -, hT, hsk⟩ := C59_block hq hnd hne hvtk
    have hun := under_alone hm.nodup hb hc (hd.alone h)
    have hsurf : k3dSurface query kind pv m b = some T := by
      simp [k3dSurface, hun, h, hs, hx, hT]
    obtain ⟨c', a, t, range', h1, h2, h3, h4⟩ := k3dDetach_spec (T := T) (fun n hn => by
      obtain ⟨f, g1, g2⟩ := skin_nodes hsk hn
      exact hf f g1 n g2) hv
    rw [hr] at h2
    obtain rfl := Option.some.inj h2
    have h5 : k3dBlock query kind pv side edges scalars range m x b c = some ([⟨.faces (side b), c', t, a, range⟩] ++
        if edges then [⟨.wire, c', t, none, none⟩] else []) := by
      simp only [k3dBlock, h, hsurf, Option.bind_some, h1, Option.map_some]
    refine ⟨_, h5, T, by simpa [DrawnOf, h] using hsk, ?_, ?_⟩
    · simp only [drawnKinds, h]
      split <;> rfl
    · intro o ho
      rcases List.mem_append.1 ho with ho | ho
      · obtain rfl := List.mem_singleton.1 ho
        exact ⟨h3, by rw [if_neg (by simp)]; exact h4 _⟩
      · split at ho
        · obtain rfl := List.mem_singleton.1 ho
          exact ⟨h3, by simp⟩
        · cases ho

/-- **C101** for meshes whose cells all refer to the points of one block, without other points beneath it: the scene consists of one picture for every
block of cells, in order. Missing: blocks with points of their own, and solids with other cells beneath them. -/
theorem C101_partial {D : Type} {query : List (V3 ℝ) → V3 ℝ → Option Nat} (hq : NearestQuery query) {kind : MBlock (V3 ℝ) D → CellKind}
    {pv : MBlock (V3 ℝ) D → PvSurf} {faces : MBlock (V3 ℝ) D → Topo} (side : MBlock (V3 ℝ) D → Option String) (edges : Bool)
    {m : List (MBlock (V3 ℝ) D)} (hm : MeshTree m) {p : List Nat} {s : MBlock (V3 ℝ) D} {q : PData (V3 ℝ) D} (hs : ClosestPts m p s q)
    (hnest : ∀ b ∈ m, b.pts.isSome → s.path <:+ b.path → b = s)
    (hd : ∀ b ∈ m, p <:+ b.path → ∀ c, b.cells = some c → CanDraw kind pv faces m q.x b c)
    {scalars : Option (List ℝ)} (hv : ∀ d, scalars = some d → d.length = q.x.length ∧ d ≠ []) :
    ∃ pics : List (List K3dItem), toK3d query kind pv side edges scalars m p = some pics.flatten ∧ pics.length = (cellsUnder m p).length ∧
      ∀ (i : Nat) (b : MBlock (V3 ℝ) D) (c : CData D), (cellsUnder m p)[i]? = some (b, c) → ∃ os, pics[i]? = some os ∧
        PictureOf (kind b) (side b) edges scalars q.x c.topo (faces b) os := by
  have hsp := sourcePath_eq hm.nodup hs
  have hx : pointsBeneath m s.path = q.x := pointsBeneath_eq hm.nodup hs.mem hs.pts hnest
  obtain ⟨range, hr⟩ : ∃ range, k3dRanges scalars = some range := by
    cases scalars with
    | none => exact ⟨none, rfl⟩
    | some d =>
      obtain ⟨r, h1, -⟩ := k3dRange_spec (hv d rfl).2
      exact ⟨some r, by simp [k3dRanges, h1]⟩
  obtain ⟨pics, h1, h2, h3⟩ := mapM_exists (l := cellsUnder m p)
    (f := fun c => k3dBlock query kind pv side edges scalars range m q.x c.1 c.2)
    (P := fun _ c os => PictureOf (kind c.1) (side c.1) edges scalars q.x c.2.topo (faces c.1) os) (by
      rintro i ⟨b, c⟩ hi
      obtain ⟨hb, hp, hc⟩ := mem_cellsUnder.1 (List.mem_of_getElem? hi)
      have hsb : ClosestPts m b.path s q := by
        refine ⟨hs.mem, hs.pts, hs.above.trans hp, fun b' hb' hpt hsub => ?_⟩
        rcases List.suffix_or_suffix_of_suffix hsub (hs.above.trans hp) with h | h
        · exact h.length_le
        · rw [hnest b' hb' hpt h]
      obtain ⟨os, g1, g2⟩ := k3dBlock_spec hq side edges hm hb hc (sourcePath_eq hm.nodup hsb) hx (hd b hb hp c hc) hv hr
      exact ⟨os, g1, g2⟩)
  refine ⟨pics, ?_, h2, ?_⟩
  · simp only [toK3d, hsp, hr, hx, h1, Option.bind_some, Option.map_some]
  · intro i b c hi
    have hl : i < pics.length := by rw [h2]; exact (List.getElem?_eq_some_iff.1 hi).1
    exact ⟨_, List.getElem?_eq_getElem hl, h3 i _ _ hi (List.getElem?_eq_getElem hl)⟩

/-- **C101** (refused): an empty array of values is an error, whatever the mesh is; the range of the colours is not defined. -/
theorem C101_refused {D : Type} (query : List (V3 ℝ) → V3 ℝ → Option Nat) (kind : MBlock (V3 ℝ) D → CellKind) (pv : MBlock (V3 ℝ) D → PvSurf)
    (side : MBlock (V3 ℝ) D → Option String) (edges : Bool) (m : List (MBlock (V3 ℝ) D)) (p : List Nat) :
    toK3d query kind pv side edges (some []) m p = none := by
  unfold toK3d
  cases sourcePath m p <;> rfl

/-- Points, a tetrahedron and a line in two blocks. -/
noncomputable def drawnMesh : List (MBlock (V3 ℝ) ℝ) :=
  [⟨[], .ambient, some ⟨skinPts, [0, 1, 2, 3, 4], fun _ => none⟩, none⟩,
    ⟨[0], .ambient, none, some ⟨[[0, 1, 2, 3]], [0], fun _ => none⟩⟩, ⟨[1], .ambient, none, some ⟨[[0, 4]], [1], fun _ => none⟩⟩]

/-- A concrete case: the skin of the tetrahedron and the line are drawn, with values. -/
example : ∃ a b, toK3d closestPoint (fun b => if b.path = [0] then .TET4 else .line) (fun _ => skinSurf1) (fun _ => none) true (some [1, 2, 3, 4, 5])
      drawnMesh [] = some (a ++ b) ∧
    PictureOf .TET4 none true (some [1, 2, 3, 4, 5]) skinPts [[0, 1, 2, 3]] skinFaces1 a ∧
    PictureOf .line none true (some [1, 2, 3, 4, 5]) skinPts [[0, 4]] skinFaces1 b := by
  obtain ⟨pics, h1, h2, h3⟩ := C101_partial (D := ℝ) nearestQuery_closestPoint (kind := fun b => if b.path = [0] then .TET4 else .line)
    (pv := fun _ => skinSurf1) (faces := fun _ => skinFaces1) (fun _ => none) true (m := drawnMesh) (p := [])
    (s := ⟨[], .ambient, some ⟨skinPts, [0, 1, 2, 3, 4], fun _ => none⟩, none⟩) (q := ⟨skinPts, [0, 1, 2, 3, 4], fun _ => none⟩)
    ⟨⟨_, _, rfl, rfl⟩, by simp [drawnMesh]⟩ ⟨List.mem_cons_self, rfl, List.suffix_rfl, fun b _ _ h => h.length_le⟩
    (by simp [drawnMesh]) (by
      intro b hb _ c hc
      simp only [drawnMesh, List.mem_cons, List.not_mem_nil, or_false] at hb
      rcases hb with rfl | rfl | rfl
      · cases hc
      · obtain rfl := Option.some.inj hc
        refine ⟨by simp [UsesNode, skinPts], by simp [CellKind.ndim], ?_, fun _ => ⟨skinPts_nodup, by simp [skinPts]⟩,
          fun _ => ⟨skinSurf1_ok, fun f hf n hn => ?_⟩⟩
        · intro _ b' hb' hc' hp
          simp only [drawnMesh, List.mem_cons, List.not_mem_nil, or_false] at hb'
          rcases hb' with rfl | rfl | rfl
          · cases hc'
          · rfl
          · simp [List.suffix_cons_iff] at hp
        · exact lt_trans ((by decide : ∀ f ∈ skinFaces1, ∀ n ∈ f, n < 4) f hf n hn) (by decide : 4 < skinPts.length)
      · obtain rfl := Option.some.inj hc
        exact ⟨by simp [UsesNode, skinPts], by simp [CellKind.ndim], by simp [CellKind.ndim], by simp [CellKind.ndim], by simp [CellKind.ndim]⟩)
    (scalars := some [1, 2, 3, 4, 5]) (by rintro d hd; obtain rfl := Option.some.inj hd; exact ⟨rfl, by simp⟩)
  have e : cellsUnder drawnMesh [] = [(⟨[0], .ambient, none, some ⟨[[0, 1, 2, 3]], [0], fun _ => none⟩⟩, ⟨[[0, 1, 2, 3]], [0], fun _ => none⟩),
      (⟨[1], .ambient, none, some ⟨[[0, 4]], [1], fun _ => none⟩⟩, ⟨[[0, 4]], [1], fun _ => none⟩)] := by simp [cellsUnder, drawnMesh]
  rw [e] at h2 h3
  match pics, h2 with
  | [a, b], _ =>
    obtain ⟨a', g1, g2⟩ := h3 0 _ _ rfl
    obtain ⟨b', k1, k2⟩ := h3 1 _ _ rfl
    obtain rfl : a = a' := by simpa using g1
    obtain rfl : b = b' := by simpa using k1
    exact ⟨a, b, by simpa using h1, g2, k2⟩

/-! ## where it is false -/

/-- A mesh with two points, and a block beneath it with a line between two points of its own. -/
noncomputable def ownPoints : List (MBlock (V3 ℝ) ℝ) :=
  [⟨[], .ambient, some ⟨[⟨0, 0, 0⟩, ⟨1, 0, 0⟩], [0, 1], fun _ => none⟩, none⟩,
    ⟨[0], .ambient, some ⟨[⟨5, 0, 0⟩, ⟨7, 0, 0⟩], [0, 1], fun _ => none⟩, some ⟨[[0, 1]], [0], fun _ => none⟩⟩]

/-- **C101** is false for blocks with points of their own: they are drawn between points of the mesh. -/
theorem C101_points_false (query : List (V3 ℝ) → V3 ℝ → Option Nat) (pv : MBlock (V3 ℝ) ℝ → PvSurf) :
    ∃ os, toK3d query (fun _ => .line) pv (fun _ => none) true none ownPoints [] = some os ∧
      (∃ b ∈ ownPoints, ∃ c q, b.cells = some c ∧ ClosestPts ownPoints b.path b q ∧
        ¬ PictureOf .line none true none q.x c.topo [] os) := by
  refine ⟨[⟨.lines, [⟨0, 0, 0⟩, ⟨1, 0, 0⟩], [[0, 1]], none, none⟩], ?_, ?_⟩
  · have e1 : sourcePath ownPoints [] = some [] := by simp [sourcePath, ptsAt, blockAt, ownPoints]
    have e2 : cellsUnder ownPoints [] = [(⟨[0], .ambient, some ⟨[⟨5, 0, 0⟩, ⟨7, 0, 0⟩], [0, 1], fun _ => none⟩, some ⟨[[0, 1]], [0], fun _ => none⟩⟩,
        ⟨[[0, 1]], [0], fun _ => none⟩)] := by simp [cellsUnder, ownPoints]
    have e3 : pointsBeneath ownPoints [] = [⟨0, 0, 0⟩, ⟨1, 0, 0⟩, ⟨5, 0, 0⟩, ⟨7, 0, 0⟩] := by simp [pointsBeneath, allPts, ownPoints]
    have e4 : detachMeshBulk ([⟨0, 0, 0⟩, ⟨1, 0, 0⟩, ⟨5, 0, 0⟩, ⟨7, 0, 0⟩] : List (V3 ℝ)) [[0, 1]] = some ([⟨0, 0, 0⟩, ⟨1, 0, 0⟩], [[0, 1]]) := rfl
    simp [toK3d, e1, e2, e3, k3dRanges, k3dBlock, CellKind.ndim, k3dDetach, e4]
  · refine ⟨_, List.mem_cons_of_mem _ List.mem_cons_self, _, _, rfl, ⟨List.mem_cons_of_mem _ List.mem_cons_self, rfl, List.suffix_rfl, ?_⟩, ?_⟩
    · intro b hb _ h
      exact h.length_le
    · rintro ⟨T, hT, -, h⟩
      obtain rfl : T = [[0, 1]] := by simpa [DrawnOf, CellKind.ndim] using hT
      obtain ⟨k, h1, h2⟩ := (h _ List.mem_cons_self).1.nodes 0 0 0 rfl
      obtain rfl : 0 = k := by simpa [nodeAt] using h1
      simp [V3.ext_iff] at h2

/-- Two tetrahedra on the two sides of a triangle; the block of the second is beneath the block of the first. -/
noncomputable def solidBeneath : List (MBlock (V3 ℝ) ℝ) :=
  [⟨[], .ambient, some ⟨skinPts, [0, 1, 2, 3, 4], fun _ => none⟩, some ⟨[[0, 1, 2, 3]], [0], fun _ => none⟩⟩,
    ⟨[0], .ambient, none, some ⟨[[0, 2, 1, 4]], [1], fun _ => none⟩⟩]

/-- **C101** is false for solids with solids beneath them: the picture of the upper block shows the surface of all blocks, which are
drawn again. -/
theorem C101_solids_false : ∃ (pv : MBlock (V3 ℝ) ℝ → PvSurf) (b0 : MBlock (V3 ℝ) ℝ) (c0 : CData ℝ) (o : K3dItem) (rest : List K3dItem),
    (cellsUnder solidBeneath [])[0]? = some (b0, c0) ∧ VtkSurface skinPts (facesOf faceIdsTET4 c0.topo) (pv b0) ∧
    toK3d closestPoint (fun _ => .TET4) pv (fun _ => none) false none solidBeneath [] = some (o :: rest) ∧
    ¬ PictureOf .TET4 none false none skinPts c0.topo (facesOf faceIdsTET4 c0.topo) [o] := by
  have hs : List.Forall₂ (VtkSurface skinPts) [skinFaces1, skinFaces2] [skinSurf1, skinSurf2] :=
    .cons skinSurf1_ok (.cons skinSurf2_ok .nil)
  have hne : skinPts ≠ [] := by simp [skinPts]
  obtain ⟨T, hT, hT1, hT2⟩ := C59_blocks nearestQuery_closestPoint skinPts_nodup hne (by simp) hs
  obtain ⟨T', -, hT', hsk'⟩ := C59_block nearestQuery_closestPoint skinPts_nodup hne skinSurf2_ok
  have hlen : skinPts.length = 5 := rfl
  have hf1 : ∀ f ∈ skinFaces1, ∀ n ∈ f, n < 4 := by decide
  have hf2 : ∀ f ∈ skinFaces2, ∀ n ∈ f, n < 5 := by decide
  have hlt : ∀ n, UsesNode T n → n < skinPts.length := by
    rintro n ⟨t, ht, hn⟩
    obtain ⟨A, hA, p, part, h1, h2, h3⟩ := hT1 t ht
    obtain ⟨f, g1, g2⟩ := occ_pos.1 (by omega : 0 < occ A p)
    have hnf := g2.mem_iff.1 (isTriang_nodes h2 t h3 n hn)
    rw [hlen]
    simp only [List.mem_cons, List.not_mem_nil, or_false] at hA
    rcases hA with rfl | rfl
    · exact (hf1 f g1 n hnf).trans (by decide)
    · exact hf2 f g1 n hnf
  have hlt' : ∀ n, UsesNode T' n → n < skinPts.length := fun n hn => by
    obtain ⟨f, g1, g2⟩ := skin_nodes hsk' hn
    exact hf2 f g1 n g2
  -- the surface of both has the node 4
  have h4 : UsesNode T 4 := by
    obtain ⟨p, part, g1, g2, g3⟩ := hT2 skinFaces2 (by simp) [0, 2, 4] (by decide)
    have hl : p.length = 3 := by rw [← g1.length_eq]; rfl
    cases g2 with
    | tri a b c => exact ⟨_, g3 _ (by simp), g1.mem_iff.1 (by simp)⟩
    | quad | quad' => simp at hl
  obtain ⟨c, a, t, range, h1, h2, h3, h5⟩ := k3dDetach_spec hlt (scalars := none) (by simp)
  obtain ⟨c', a', t', range', k1, k2, k3, k5⟩ := k3dDetach_spec hlt' (scalars := none) (by simp)
  obtain rfl : none = range := by simpa [k3dRanges] using h2
  have e1 : sourcePath solidBeneath [] = some [] := by simp [sourcePath, ptsAt, blockAt, solidBeneath]
  have e1' : sourcePath solidBeneath [0] = some [] := by simp [sourcePath, ptsAt, blockAt, solidBeneath]
  have e2 : cellsUnder solidBeneath [] = [(⟨[], .ambient, some ⟨skinPts, [0, 1, 2, 3, 4], fun _ => none⟩, some ⟨[[0, 1, 2, 3]], [0], fun _ => none⟩⟩,
      ⟨[[0, 1, 2, 3]], [0], fun _ => none⟩), (⟨[0], .ambient, none, some ⟨[[0, 2, 1, 4]], [1], fun _ => none⟩⟩, ⟨[[0, 2, 1, 4]], [1], fun _ => none⟩)] := by
    simp [cellsUnder, solidBeneath]
  have e2' : cellsUnder solidBeneath [0] = [(⟨[0], .ambient, none, some ⟨[[0, 2, 1, 4]], [1], fun _ => none⟩⟩, ⟨[[0, 2, 1, 4]], [1], fun _ => none⟩)] := by
    simp [cellsUnder, solidBeneath]
  have e3 : pointsBeneath solidBeneath [] = skinPts := by simp [pointsBeneath, allPts, solidBeneath]
  refine ⟨fun b => if b.path = [] then skinSurf1 else skinSurf2,
    ⟨[], .ambient, some ⟨skinPts, [0, 1, 2, 3, 4], fun _ => none⟩, some ⟨[[0, 1, 2, 3]], [0], fun _ => none⟩⟩, ⟨[[0, 1, 2, 3]], [0], fun _ => none⟩,
    ⟨.faces none, c, t, a, none⟩, [⟨.faces none, c', t', a', none⟩], by rw [e2]; rfl, skinSurf1_ok, ?_, ?_⟩
  · simp [toK3d, e1, e1', e2, e2', e3, k3dRanges, k3dBlock, CellKind.ndim, k3dSurface, hT, hT', h1, k1]
  · rintro ⟨T0, hT0, -, hall⟩
    have hsk : IsSkinTri skinFaces1 T0 := hT0
    have hsh := (hall _ List.mem_cons_self).1
    -- a point of the picture at node 4
    obtain ⟨r, hr, h4r⟩ := h4
    obtain ⟨i, hi⟩ := List.mem_iff_getElem?.1 hr
    obtain ⟨j, hj⟩ := List.mem_iff_getElem?.1 h4r
    obtain ⟨k, n1, n2⟩ := h3.nodes i j 4 (by simp [nodeAt, hi, hj])
    have hshape : (T0.map List.length)[i]? = some r.length := by
      rw [← hsh.shape, h3.shape, List.getElem?_map, hi]; rfl
    rw [List.getElem?_map, Option.map_eq_some_iff] at hshape
    obtain ⟨r0, hr0, hl0⟩ := hshape
    have hj0 : j < r0.length := by rw [hl0]; exact (List.getElem?_eq_some_iff.1 hj).1
    obtain ⟨k0, m1, m2⟩ := hsh.nodes i j r0[j] (by simp [nodeAt, hr0, hj0])
    have hk : some k = some k0 := n1.symm.trans m1
    obtain rfl := Option.some.inj hk
    rw [n2] at m2
    obtain ⟨f, g1, g2⟩ := skin_nodes hsk ⟨r0, List.mem_of_getElem? hr0, List.getElem_mem hj0⟩
    have hn4 := hf1 f g1 _ g2
    have h4l : 4 < skinPts.length := by decide
    have hnl : r0[j] < skinPts.length := by rw [hlen]; omega
    rw [List.getElem?_eq_getElem h4l, List.getElem?_eq_getElem hnl, Option.some.injEq] at m2
    have := (List.Nodup.getElem_inj_iff skinPts_nodup).1 m2
    omega

/-- **C101** is false for solids with other cells beneath them: nothing is drawn, the assertion of `surface` fails. -/
theorem C101_mixed_false (query : List (V3 ℝ) → V3 ℝ → Option Nat) (pv : MBlock (V3 ℝ) ℝ → PvSurf) :
    toK3d query (fun b => if b.path = [] then .TET4 else .line) pv (fun _ => none) true none
      [⟨[], .ambient, some ⟨skinPts, [0, 1, 2, 3, 4], fun _ => none⟩, some ⟨[[0, 1, 2, 3]], [0], fun _ => none⟩⟩,
        ⟨[0], .ambient, none, some ⟨[[0, 4]], [1], fun _ => none⟩⟩] [] = none := by
  simp [toK3d, sourcePath, ptsAt, blockAt, cellsUnder, k3dRanges, k3dBlock, CellKind.ndim, k3dSurface]

end PM
