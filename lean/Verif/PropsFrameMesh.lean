import Verif.FrameMesh
import Verif.PropsCloud
import Verif.TopoLemmas

/-!
# C83: frames and points of meshes
-/

namespace PM

section
variable {K : Type} [Field K]

/-- Specification: `b` is the closest block at or above the path `p` that has a frame or points. -/
structure ClosestFramed (m : List (FBlock K)) (p : List Nat) (b : FBlock K) : Prop where
  mem : b ∈ m
  has : b.frame.isSome ∨ b.pts.isSome
  above : b.path <:+ p
  closest : ∀ c ∈ m, c.frame.isSome ∨ c.pts.isSome → c.path <:+ p → c.path.length ≤ b.path.length

/-- Specification: the frame of a block that has one or has points: its own one, otherwise that of its points, otherwise the ambient
frame. -/
def IsFrameOf (b : FBlock K) (F : CFrame K) : Prop :=
  b.frame = some F ∨ (b.frame = none ∧ ∃ q, b.pts = some q ∧ (q.frame = some F ∨ (q.frame = none ∧ ∀ x, F.place x = x)))

theorem ambFrame_place (x : V3 K) : (ambFrame : CFrame K).place x = x := by
  ext <;> simp [ambFrame, CFrame.place]

theorem eq_ambFrame {F : CFrame K} (h : ∀ x, F.place x = x) : F = ambFrame := by
  have h0 := h 0
  have h1 := h ⟨1, 0, 0⟩
  have h2 := h ⟨0, 1, 0⟩
  have h3 := h ⟨0, 0, 1⟩
  have e0 : F.origo = 0 := by
    have a := congrArg V3.x h0
    have b := congrArg V3.y h0
    have c := congrArg V3.z h0
    simp [CFrame.place] at a b c
    exact V3.ext a b c
  have e1 : F.i = ⟨1, 0, 0⟩ := by
    have a := congrArg V3.x h1
    have b := congrArg V3.y h1
    have c := congrArg V3.z h1
    simp [CFrame.place, e0] at a b c
    exact V3.ext a b c
  have e2 : F.j = ⟨0, 1, 0⟩ := by
    have a := congrArg V3.x h2
    have b := congrArg V3.y h2
    have c := congrArg V3.z h2
    simp [CFrame.place, e0] at a b c
    exact V3.ext a b c
  have e3 : F.k = ⟨0, 0, 1⟩ := by
    have a := congrArg V3.x h3
    have b := congrArg V3.y h3
    have c := congrArg V3.z h3
    simp [CFrame.place, e0] at a b c
    exact V3.ext a b c
  exact CFrame.ext e1 e2 e3 e0

theorem ownFrame_iff (b : FBlock K) (F : CFrame K) : b.ownFrame = some F ↔ IsFrameOf b F := by
  unfold FBlock.ownFrame IsFrameOf pdFrame
  cases hb : b.frame with
  | some G => simp
  | none =>
    cases hq : b.pts with
    | none => simp
    | some q =>
      cases hf : q.frame with
      | some G => simp [hf]
      | none =>
        simp only [Option.map_some, Option.some.injEq, hf, Option.getD_none, reduceCtorEq, false_or, true_and]
        constructor
        · rintro rfl
          exact ⟨q, rfl, Or.inr ⟨hf, ambFrame_place⟩⟩
        · rintro ⟨q', rfl, h | h⟩
          · rw [hf] at h; cases h
          · exact (eq_ambFrame h.2).symm

theorem ownFrame_isSome (b : FBlock K) : b.ownFrame.isSome ↔ b.frame.isSome ∨ b.pts.isSome := by
  unfold FBlock.ownFrame
  cases b.frame <;> simp

theorem frameAt_mem {m : List (FBlock K)} (hm : (m.map FBlock.path).Nodup) {b : FBlock K} (hb : b ∈ m) :
    frameAt m b.path = b.ownFrame := by
  unfold frameAt
  have : (m.find? fun c => c.path = b.path) = some b := by
    induction m with
    | nil => cases hb
    | cons a m ih =>
      rw [List.map_cons, List.nodup_cons] at hm
      rcases List.mem_cons.1 hb with rfl | hb
      · simp
      · have : a.path ≠ b.path := fun h => hm.1 (h ▸ List.mem_map_of_mem hb)
        rw [List.find?_cons_of_neg (by simpa using this)]
        exact ih hm.2 hb
  rw [this, Option.bind_some]

theorem frameAt_some {m : List (FBlock K)} {r : List Nat} {F : CFrame K} (h : frameAt m r = some F) :
    ∃ b ∈ m, b.path = r ∧ b.ownFrame = some F := by
  obtain ⟨b, hb, hF⟩ := Option.bind_eq_some_iff.1 h
  exact ⟨b, List.mem_of_find?_eq_some hb, by simpa using List.find?_some hb, hF⟩

theorem frameOf_closest {m : List (FBlock K)} {p : List Nat} {F : CFrame K} (hm : (m.map FBlock.path).Nodup)
    (h : frameOf m p = some F) : ∃ b, ClosestFramed m p b ∧ b.ownFrame = some F := by
  induction p with
  | nil =>
    obtain ⟨b, hb, h1, h2⟩ := frameAt_some h
    refine ⟨b, ⟨hb, (ownFrame_isSome b).1 (by rw [h2]; rfl), by rw [h1], fun c _ _ hc => ?_⟩, h2⟩
    rw [List.suffix_nil.1 hc]
    exact Nat.zero_le _
  | cons k p ih =>
    unfold frameOf at h
    cases hf : frameAt m (k :: p) with
    | some G =>
      rw [hf] at h
      obtain rfl := Option.some.inj h
      obtain ⟨b, hb, h1, h2⟩ := frameAt_some hf
      refine ⟨b, ⟨hb, (ownFrame_isSome b).1 (by rw [h2]; rfl), by rw [h1], fun c _ _ hc => ?_⟩, h2⟩
      rw [h1]
      exact hc.length_le
    | none =>
      rw [hf] at h
      obtain ⟨b, hb, h2⟩ := ih h
      refine ⟨b, ⟨hb.mem, hb.has, hb.above.trans (List.suffix_cons _ _), fun c hc hc1 hc2 => ?_⟩, h2⟩
      rcases List.suffix_cons_iff.1 hc2 with he | hs
      · exfalso
        rw [← he, frameAt_mem hm hc] at hf
        rw [← ownFrame_isSome, hf] at hc1
        cases hc1
      · exact hb.closest c hc hc1 hs

theorem frameOf_none {m : List (FBlock K)} {p : List Nat} (hm : (m.map FBlock.path).Nodup) (h : frameOf m p = none) :
    ∀ b, ¬ ClosestFramed m p b := by
  have key : ∀ c ∈ m, c.path <:+ p → ¬ (c.frame.isSome ∨ c.pts.isSome) := by
    induction p with
    | nil =>
      intro c hc hp
      have h0 := List.suffix_nil.1 hp
      change frameAt m [] = none at h
      rw [← h0, frameAt_mem hm hc] at h
      rw [← ownFrame_isSome, h]
      simp
    | cons k p ih =>
      intro c hc hp
      unfold frameOf at h
      cases hf : frameAt m (k :: p) with
      | some G => rw [hf] at h; cases h
      | none =>
        rw [hf] at h
        rcases List.suffix_cons_iff.1 hp with he | hs
        · rw [← he, frameAt_mem hm hc] at hf
          rw [← ownFrame_isSome, hf]
          simp
        · exact ih h c hc hs
  exact fun b hb => key b hb.mem hb.above hb.has

/-- **C83** the frame of a block is that of the closest block, at or above it, that has a frame or points. -/
theorem C83_frame {m : List (FBlock K)} (hm : (m.map FBlock.path).Nodup) (p : List Nat) (F : CFrame K) :
    frameOf m p = some F ↔ ∃ b, ClosestFramed m p b ∧ IsFrameOf b F := by
  constructor
  · intro h
    obtain ⟨b, h1, h2⟩ := frameOf_closest hm h
    exact ⟨b, h1, (ownFrame_iff b F).1 h2⟩
  · rintro ⟨b, h1, h2⟩
    cases h : frameOf m p with
    | none => exact absurd h1 (frameOf_none hm h b)
    | some G =>
      obtain ⟨c, c1, c2⟩ := frameOf_closest hm h
      have hl : c.path = b.path := by
        have hle := h1.closest c c1.mem c1.has c1.above
        have hge := c1.closest b h1.mem h1.has h1.above
        exact List.IsSuffix.eq_of_length (List.suffix_of_suffix_length_le c1.above h1.above hle) (by omega)
      have : frameAt m c.path = frameAt m b.path := by rw [hl]
      rw [frameAt_mem hm c1.mem, frameAt_mem hm h1.mem, c2, (ownFrame_iff b F).2 h2] at this
      exact this

/-- **C83** `PointData.frame`: the own frame of the points goes before that of the block, without any frame the points are in
ambient space. -/
theorem C83_pointdata (b : FBlock K) (q : FPts K) : (∀ F, q.frame = some F → pdFrame b q = F) ∧
    (q.frame = none → ∀ F, b.frame = some F → pdFrame b q = F) ∧
    (q.frame = none → b.frame = none → ∀ x, (pdFrame b q).place x = x) := by
  refine ⟨fun F h => ?_, fun h F hb => ?_, fun h hb x => ?_⟩
  · rw [pdFrame, h]
  · rw [pdFrame, h, hb]; rfl
  · rw [pdFrame, h, hb]; exact ambFrame_place x

/-- **C83** the frame of the points is the frame of the block that holds them, unless both have a frame of their own. Missing:
points and blocks with different frames (`C83_pointdata_false`). -/
theorem C83_pointdata_partial (b : FBlock K) (q : FPts K) (hq : b.pts = some q) (h : q.frame = none ∨ b.frame = none ∨ q.frame = b.frame) :
    IsFrameOf b (pdFrame b q) := by
  obtain ⟨h1, h2, h3⟩ := C83_pointdata b q
  cases hb : b.frame with
  | none =>
    refine Or.inr ⟨hb, q, hq, ?_⟩
    cases hf : q.frame with
    | none => exact Or.inr ⟨rfl, h3 hf hb⟩
    | some F => exact Or.inl (by rw [h1 F hf])
  | some G =>
    refine Or.inl ?_
    rw [hb]
    cases hf : q.frame with
    | none => rw [h2 hf G hb]
    | some F =>
      rw [hb, hf] at h
      simp only [reduceCtorEq, Option.some.injEq, false_or] at h
      rw [h1 F hf, h]

/-- **C83** the frame is missing (an exception) exactly if no block at or above has a frame or points. -/
theorem C83_no_frame {m : List (FBlock K)} (hm : (m.map FBlock.path).Nodup) (p : List Nat) :
    frameOf m p = none ↔ ∀ b ∈ m, b.path <:+ p → b.frame = none ∧ b.pts = none := by
  constructor
  · intro h b hb hp
    by_contra hne
    have hhas : b.frame.isSome ∨ b.pts.isSome := by
      rcases hf : b.frame with _ | F
      · rcases hq : b.pts with _ | q
        · exact absurd ⟨hf, hq⟩ hne
        · exact Or.inr (by simp)
      · exact Or.inl (by simp)
    -- a longest one exists
    have : ∀ n, ∀ c ∈ m, c.path <:+ p → (c.frame.isSome ∨ c.pts.isSome) → p.length - c.path.length ≤ n → False := by
      intro n
      induction n with
      | zero =>
        intro c hc hcp hch hle
        refine frameOf_none hm h c ⟨hc, hch, hcp, fun d _ _ hd => ?_⟩
        have := hcp.length_le
        have := hd.length_le
        omega
      | succ n ih =>
        intro c hc hcp hch hle
        by_cases hex : ∃ d ∈ m, (d.frame.isSome ∨ d.pts.isSome) ∧ d.path <:+ p ∧ c.path.length < d.path.length
        · obtain ⟨d, d1, d2, d3, d4⟩ := hex
          exact ih d d1 d3 d2 (by omega)
        · refine frameOf_none hm h c ⟨hc, hch, hcp, fun d d1 d2 d3 => ?_⟩
          by_contra hlt
          exact hex ⟨d, d1, d2, d3, by omega⟩
    exact this _ b hb hp hhas le_rfl
  · intro h
    cases hF : frameOf m p with
    | none => rfl
    | some F =>
      obtain ⟨b, b1, b2⟩ := (C83_frame hm p F).1 hF
      obtain ⟨h1, h2⟩ := h b b1.mem b1.above
      rcases b1.has with hh | hh
      · rw [h1] at hh; cases hh
      · rw [h2] at hh; cases hh

/-- **C83** what is stored of coordinates given in a frame: their places in ambient space. Planar coordinates get a zero at the new
axis. -/
theorem C83_store_partial (F : CFrame K) (newaxis : Nat) (hax : newaxis < 3) :
    (∀ l : List (V3 K), storeCoords (some F) newaxis (.spatial l) = some (.spatial (l.map F.place))) ∧
    (∀ l : List (V3 K), storeCoords none newaxis (.spatial l) = some (.spatial l)) ∧
    ∀ l : List (K × K), ∃ X : List (V3 K), storeCoords (some F) newaxis (.planar l) = some (.spatial (X.map F.place)) ∧
      X.length = l.length ∧ ∀ (i : Nat) (p : K × K) (x : V3 K), l[i]? = some p → X[i]? = some x →
        [x.x, x.y, x.z][newaxis]? = some 0 ∧ [x.x, x.y, x.z].eraseIdx newaxis = [p.1, p.2] := by
  refine ⟨fun l => ?_, fun l => ?_, fun l => ?_⟩
  · simp only [storeCoords, Option.getD_some]
    rw [show pcShow F none = F.place from funext (pcShow_none F)]
  · simp only [storeCoords, Option.getD_none]
    rw [show pcShow (ambFrame : CFrame K) none = id from funext fun x => by rw [pcShow_none, ambFrame_place]; rfl, List.map_id]
  · obtain ⟨X, h1, h2, h3⟩ := mapM_exists (f := embedRow (K := K) newaxis) (l := l)
      (P := fun _ p x => [x.x, x.y, x.z][newaxis]? = some 0 ∧ [x.x, x.y, x.z].eraseIdx newaxis = [p.1, p.2]) (by
        intro i p _
        match newaxis, hax with
        | 0, _ => exact ⟨_, rfl, rfl, rfl⟩
        | 1, _ => exact ⟨_, rfl, rfl, rfl⟩
        | 2, _ => exact ⟨_, rfl, rfl, rfl⟩)
    refine ⟨X, ?_, h2, h3⟩
    simp only [storeCoords, h1, Option.map_some]
    rw [show pcShow F none = F.place from funext (pcShow_none F)]

omit [Field K] in
theorem mem_ptsUnder {m : List (FBlock K)} {p : List Nat} {x : List Nat × FPts K} :
    x ∈ ptsUnder m p ↔ ∃ b ∈ m, p <:+ b.path ∧ b.path = x.1 ∧ b.pts = some x.2 := by
  unfold ptsUnder
  rw [List.mem_filterMap]
  constructor
  · rintro ⟨b, hb, h⟩
    rw [List.mem_filter] at hb
    obtain ⟨q, hq, rfl⟩ := Option.map_eq_some_iff.1 h
    exact ⟨b, hb.1, by simpa using hb.2, rfl, hq⟩
  · rintro ⟨b, hb, h1, h2, h3⟩
    exact ⟨b, List.mem_filter.2 ⟨hb, by simpa using h1⟩, by simp [h3, h2]⟩

/-- Specification: the numbers of the points of the blocks beneath `p`, one block after the other, each mapped by the map of its
block. -/
def perBlock {α : Type} (m : List (FBlock K)) (p : List Nat) (f : FBlock K → FPts K → List α) : List α :=
  (m.filter fun b => p <:+ b.path).flatMap fun b => match b.pts with
    | some q => f b q
    | none => []

omit [Field K] in
theorem ptsUnder_flatMap {α : Type} (m : List (FBlock K)) (p : List Nat) (g : List Nat → FPts K → List α) :
    ((ptsUnder m p).flatMap fun x => g x.1 x.2) = perBlock m p fun b q => g b.path q := by
  unfold ptsUnder perBlock
  induction m.filter fun b => p <:+ b.path with
  | nil => rfl
  | cons b l ih =>
    cases hb : b.pts with
    | none =>
      rw [List.filterMap_cons_none (by rw [hb]; rfl), List.flatMap_cons, ih, hb]
      rfl
    | some q =>
      rw [List.filterMap_cons_some (b := (b.path, q)) (by rw [hb]; rfl), List.flatMap_cons, List.flatMap_cons, ih, hb]

omit [Field K] in
theorem perBlock_congr {α : Type} {m : List (FBlock K)} {p : List Nat} {f g : FBlock K → FPts K → List α}
    (h : ∀ b ∈ m, ∀ q, b.pts = some q → f b q = g b q) : perBlock m p f = perBlock m p g := by
  unfold perBlock
  rw [List.flatMap_def, List.flatMap_def]
  congr 1
  refine List.map_congr_left fun b hb => ?_
  cases hq : b.pts with
  | none => rfl
  | some q => exact h b (List.mem_filter.1 hb).1 q hq

theorem isFrameOf_unique {b : FBlock K} {F G : CFrame K} (hF : IsFrameOf b F) (hG : IsFrameOf b G) : F = G := by
  rw [← ownFrame_iff] at hF hG
  exact Option.some.inj (hF.symm.trans hG)

theorem frameOf_pts {m : List (FBlock K)} (hm : (m.map FBlock.path).Nodup) {b : FBlock K} (hb : b ∈ m) {q : FPts K}
    (hq : b.pts = some q) {F : CFrame K} (hF : IsFrameOf b F) : frameOf m b.path = some F :=
  (C83_frame hm _ _).2 ⟨b, ⟨hb, Or.inr (by rw [hq]; rfl), List.suffix_refl _, fun _ _ _ hc => hc.length_le⟩, hF⟩

theorem place_vecShow {T : CFrame K} (hT : T.Ortho) (F : CFrame K) (x : V3 K) :
    T.place (vecShow F (some T) x) = F.place x - F.origo + T.origo := by
  have h := vecAmb_vecLoc hT (F.vecAmb x)
  have hx := congrArg V3.x h
  have hy := congrArg V3.y h
  have hz := congrArg V3.z h
  unfold vecShow CFrame.place
  simp only [CFrame.vecAmb, V3.add_x, V3.add_y, V3.add_z] at hx hy hz
  ext
  · simp only [CFrame.vecAmb, V3.add_x, V3.sub_x]; rw [hx]; ring
  · simp only [CFrame.vecAmb, V3.add_y, V3.sub_y]; rw [hy]; ring
  · simp only [CFrame.vecAmb, V3.add_z, V3.sub_z]; rw [hz]; ring

/-- **C83** `points()` of a block: the ids and the points of all blocks beneath it, in the same order, in the frame of the block. The
places of the points are, from block to block, those in the frame of the block, shifted by the difference of the origins. -/
theorem C83_points {m : List (FBlock K)} (hm : (m.map FBlock.path).Nodup) {p : List Nat} {T : CFrame K} (hT : T.Ortho)
    (hp : frameOf m p = some T) (hex : ∃ b ∈ m, p <:+ b.path ∧ b.pts.isSome) (Fr : FBlock K → CFrame K)
    (hFr : ∀ b ∈ m, b.pts.isSome → IsFrameOf b (Fr b)) :
    ∃ c, framedPoints m p = some c ∧ c.frame = T ∧ c.inds = (perBlock m p fun _ q => q.id) ∧
      c.show none = perBlock m p fun b q => q.x.map fun x => (Fr b).place x - (Fr b).origo + T.origo := by
  classical
  have hfr : ∀ x ∈ ptsUnder m p, ∃ F, frameOf m x.1 = some F := by
    intro x hx
    obtain ⟨b, h1, h2, h3, h4⟩ := mem_ptsUnder.1 hx
    exact ⟨Fr b, h3 ▸ frameOf_pts hm h1 h4 (hFr b h1 (by rw [h4]; rfl))⟩
  have hne : (ptsUnder m p).isEmpty = false := by
    obtain ⟨b, h1, h2, h3⟩ := hex
    obtain ⟨q, hq⟩ := Option.isSome_iff_exists.1 h3
    have : (b.path, q) ∈ ptsUnder m p := mem_ptsUnder.2 ⟨b, h1, h2, rfl, hq⟩
    cases hl : ptsUnder m p with
    | nil => rw [hl] at this; cases this
    | cons _ _ => rfl
  have hmap := mapM_some (l := ptsUnder m p)
    (f := fun (b : List Nat × FPts K) => (frameOf m b.1).map fun F => b.2.x.map (vecShow F (some T)))
    (g := fun b => b.2.x.map (vecShow ((frameOf m b.1).getD T) (some T))) (by
      intro x hx
      obtain ⟨F, hF⟩ := hfr x hx
      simp only [hF, Option.map_some, Option.getD_some])
  refine ⟨⟨((ptsUnder m p).map fun b => b.2.x.map (vecShow ((frameOf m b.1).getD T) (some T))).flatten, T,
    (ptsUnder m p).flatMap fun b => b.2.id⟩, ?_, rfl, ptsUnder_flatMap m p fun _ q => q.id, ?_⟩
  · unfold framedPoints
    rw [hp, Option.bind_some, hmap, Option.bind_some]
    simp only [List.isEmpty_map, hne]
    rfl
  · unfold FCloud.show
    simp only
    rw [show pcShow T none = T.place from funext (pcShow_none T), ← List.flatMap_def, List.map_flatMap]
    simp only [List.map_map]
    rw [ptsUnder_flatMap m p fun r q => q.x.map (T.place ∘ vecShow ((frameOf m r).getD T) (some T))]
    apply perBlock_congr
    intro b hb q hq
    rw [frameOf_pts hm hb hq (hFr b hb (by rw [hq]; rfl)), Option.getD_some]
    exact List.map_congr_left fun x _ => place_vecShow hT _ x

/-- **C83** the points of a block are where the blocks beneath it have them if all frames have the same origin. -/
theorem C83_points_partial {m : List (FBlock K)} (hm : (m.map FBlock.path).Nodup) {p : List Nat} {T : CFrame K} (hT : T.Ortho)
    (hp : frameOf m p = some T) (hex : ∃ b ∈ m, p <:+ b.path ∧ b.pts.isSome) (Fr : FBlock K → CFrame K)
    (hFr : ∀ b ∈ m, b.pts.isSome → IsFrameOf b (Fr b)) (ho : ∀ b ∈ m, b.pts.isSome → (Fr b).origo = T.origo) :
    ∃ c, framedPoints m p = some c ∧ c.frame = T ∧ c.inds = (perBlock m p fun _ q => q.id) ∧
      c.show none = perBlock m p fun b q => q.x.map (Fr b).place := by
  obtain ⟨c, h1, h2, h3, h4⟩ := C83_points hm hT hp hex Fr hFr
  refine ⟨c, h1, h2, h3, h4.trans (perBlock_congr fun b hb q hq => List.map_congr_left fun x _ => ?_)⟩
  rw [ho b hb (by rw [hq]; rfl)]
  ext <;> simp

/-- **C83** `coords(target)` are the coordinates of the same points in the target. -/
theorem C83_show (c : FCloud K) {S : CFrame K} (hS : S.Ortho) : (c.show (some S)).map S.place = c.show none := by
  unfold FCloud.show
  rw [List.map_map]
  exact List.map_congr_left fun x _ => by
    rw [Function.comp_apply, (C45_same_point hS x).2, (C45_same_point hS x).1]

theorem ambFrame_ortho : (ambFrame : CFrame K).Ortho := by
  constructor <;> simp [ambFrame, V3.dot]

/-- **C83** a mesh made of spatial coordinates shows these coordinates if no frame was given. -/
theorem C83_mesh_partial (newaxis : Nat) (X : List (V3 K)) :
    ∃ m c, newMesh none newaxis (.spatial X) = some m ∧ framedPoints m [] = some c ∧ c.show none = X ∧
      c.inds = List.range X.length := by
  have hs : storeCoords (none : Option (CFrame K)) newaxis (.spatial X) = some (.spatial X) := by
    simp only [storeCoords, Option.getD_none]
    rw [show pcShow (ambFrame : CFrame K) none = id from funext fun x => by rw [pcShow_none, ambFrame_place]; rfl, List.map_id]
  have hm : newMesh none newaxis (.spatial X) =
      some [⟨[], none, some ⟨X, List.range X.length, some ambFrame⟩, none⟩] := by
    unfold newMesh
    rw [hs, Option.bind_some]
    rfl
  obtain ⟨c, h1, -, h3, h4⟩ := C83_points (m := [⟨[], none, some ⟨X, List.range X.length, some (ambFrame : CFrame K)⟩, none⟩])
    (by simp) (p := []) ambFrame_ortho rfl ⟨_, List.mem_singleton.2 rfl, List.suffix_refl _, rfl⟩ (fun _ => ambFrame)
    (by
      intro b hb _
      rw [List.mem_singleton.1 hb]
      exact Or.inr ⟨rfl, _, rfl, Or.inl rfl⟩)
  refine ⟨_, c, hm, h1, ?_, ?_⟩
  · rw [h4]
    simp only [perBlock, List.filter_cons, List.suffix_refl, decide_true, if_true, List.filter_nil, List.flatMap_cons, List.flatMap_nil,
      List.append_nil, ambFrame_place]
    refine (List.map_congr_left (g := id) fun x _ => ?_).trans (List.map_id _)
    ext <;> simp
  · rw [h3]
    simp [perBlock]

/-- **C83** with a frame the coordinates are transformed twice: what the mesh shows are the places, in the frame, of the places of the
coordinates given. -/
theorem C83_mesh_twice {F : CFrame K} (hF : F.Ortho) (newaxis : Nat) (X : List (V3 K)) :
    ∃ m c, newMesh (some F) newaxis (.spatial X) = some m ∧ framedPoints m [] = some c ∧
      c.show none = X.map fun x => F.place (F.place x) := by
  have hm : newMesh (some F) newaxis (.spatial X) =
      some [⟨[], some F, some ⟨X.map F.place, List.range (X.map F.place).length, some F⟩, none⟩] := by
    unfold newMesh
    simp only [storeCoords, Option.getD_some]
    rw [show pcShow F none = F.place from funext (pcShow_none F), Option.bind_some]
    rfl
  obtain ⟨c, h1, -, -, h4⟩ := C83_points
    (m := [⟨[], some F, some ⟨X.map F.place, List.range (X.map F.place).length, some F⟩, none⟩])
    (by simp) (p := []) hF rfl ⟨_, List.mem_singleton.2 rfl, List.suffix_refl _, rfl⟩ (fun _ => F)
    (by
      intro b hb _
      rw [List.mem_singleton.1 hb]
      exact Or.inl rfl)
  refine ⟨_, c, hm, h1, ?_⟩
  rw [h4]
  simp only [perBlock, List.filter_cons, List.suffix_refl, decide_true, if_true, List.filter_nil, List.flatMap_cons, List.flatMap_nil,
    List.append_nil, List.map_map]
  refine List.map_congr_left fun x _ => ?_
  ext <;> simp

/-- **C83** the points of the cells beneath a block whose frame is that of the root: the points, of the whole mesh, with the ids that
are used by the cells, once each and ordered by the ids. -/
theorem C83_from_cells_partial {m : List (FBlock K)} {p : List Nat} {R : FCloud K} {T : CFrame K}
    (hR : framedPoints m [] = some R) (hlen : R.x.length = R.inds.length) (hinj : R.inds.Nodup) (hp : frameOf m p = some T)
    (hroot : R.frame = T)
    (hused : ∀ b ∈ m, p <:+ b.path → ∀ t, b.topo = some t → ∀ r ∈ t, ∀ n ∈ r, n ∈ R.inds) :
    ∃ c, cellPoints m p = some c ∧ c.frame = T ∧ c.inds.Pairwise (· < ·) ∧
      (∀ n, n ∈ c.inds ↔ ∃ b ∈ m, p <:+ b.path ∧ ∃ t, b.topo = some t ∧ ∃ r ∈ t, n ∈ r) ∧ c.x.length = c.inds.length ∧
      ∀ (k i n : Nat), c.inds[k]? = some n → R.inds[i]? = some n → (c.show none)[k]? = (R.show none)[i]? := by
  have hmem : ∀ n, n ∈ npUnique (framedTopo m p).flatten ↔ ∃ b ∈ m, p <:+ b.path ∧ ∃ t, b.topo = some t ∧ ∃ r ∈ t, n ∈ r := by
    intro n
    rw [mem_npUnique, List.mem_flatten]
    unfold framedTopo
    constructor
    · rintro ⟨r, hr, hn⟩
      obtain ⟨b, hb, hr⟩ := List.mem_flatMap.1 hr
      rw [List.mem_filter] at hb
      cases ht : b.topo with
      | none => rw [ht] at hr; cases hr
      | some t => rw [ht] at hr; exact ⟨b, hb.1, by simpa using hb.2, t, ht, r, hr, hn⟩
    · rintro ⟨b, hb, h1, t, ht, r, hr, hn⟩
      exact ⟨r, List.mem_flatMap.2 ⟨b, List.mem_filter.2 ⟨hb, by simpa using h1⟩, by rw [ht]; exact hr⟩, hn⟩
  have hin : ∀ n ∈ npUnique (framedTopo m p).flatten, n ∈ R.inds := by
    intro n hn
    obtain ⟨b, hb, h1, t, ht, r, hr, hn⟩ := (hmem n).1 hn
    exact hused b hb h1 t ht r hr n hn
  have hre := remapTopo1d_some (row := npUnique (framedTopo m p).flatten) (imap := .dict (indsToInvmapAsDict R.inds))
    (g := fun n => R.inds.idxOf n) (by
      intro n hn
      exact (invmap_get? hinj n).trans (if_pos (hin n hn)))
  obtain ⟨x, x1, x2, x3⟩ := gather?_eq_some (a := R.x) (inds := (npUnique (framedTopo m p).flatten).map fun n => R.inds.idxOf n) (by
    intro i hi
    obtain ⟨n, hn, rfl⟩ := List.mem_map.1 hi
    rw [hlen]
    exact List.idxOf_lt_length_of_mem (hin n hn))
  refine ⟨⟨x, T, npUnique (framedTopo m p).flatten⟩, ?_, rfl, ?_, hmem, by simpa using x2, ?_⟩
  · unfold cellPoints
    rw [hp, Option.bind_some, hR, Option.bind_some]
    simp only [hre, Option.bind_some, x1, Option.map_some]
  · exact sorted_npUnique _
  · intro k i n hk hi
    have hidx : R.inds.idxOf n = i := by
      obtain ⟨hlt, he⟩ := List.getElem?_eq_some_iff.1 hi
      rw [← he]
      exact hinj.idxOf_getElem i hlt
    have := x3 k i (by rw [List.getElem?_map, hk, Option.map_some, hidx])
    unfold FCloud.show
    rw [List.getElem?_map, List.getElem?_map, this, hroot]

end

/-! ## witnesses -/

/-- A mesh with two blocks of points with frames with different origins; the cells are beneath the second one. -/
def twoFrames : List (FBlock ℚ) :=
  [⟨[], none, some ⟨[⟨0, 0, 0⟩, ⟨1, 0, 0⟩], [4, 2], some ambFrame⟩, none⟩,
   ⟨[0], some turnedFrame, some ⟨[⟨1, 1, 0⟩], [7], none⟩, none⟩,
   ⟨[1, 0], none, none, some [[7, 7]]⟩]

example : frameOf twoFrames [1, 0] = some turnedFrame := by decide +kernel
example : (framedPoints twoFrames []).map FCloud.inds = some [4, 2, 7] := by decide +kernel
example : (framedPoints twoFrames []).map (fun c => c.show none) = some [⟨0, 0, 0⟩, ⟨1, 0, 0⟩, ⟨-1, 1, 0⟩] := by decide +kernel

/-- **C83** the points are not where the blocks have them if the origins differ. -/
theorem C83_origins_false : ¬ ∀ (m : List (FBlock ℚ)) (p : List Nat) (T : CFrame ℚ) (Fr : FBlock ℚ → CFrame ℚ) (c : FCloud ℚ),
    (m.map FBlock.path).Nodup → T.Ortho → frameOf m p = some T → (∀ b ∈ m, b.pts.isSome → IsFrameOf b (Fr b) ∧ (Fr b).Ortho) →
    framedPoints m p = some c → c.show none = perBlock m p fun b q => q.x.map (Fr b).place := by
  intro h
  have := h twoFrames [] ambFrame (fun b => if b.path = [] then ambFrame else turnedFrame)
    ⟨[⟨0, 0, 0⟩, ⟨1, 0, 0⟩, ⟨-1, 1, 0⟩], ambFrame, [4, 2, 7]⟩ (by decide +kernel) ambFrame_ortho (by decide +kernel) (by
      intro b hb hs
      simp only [twoFrames, List.mem_cons, List.not_mem_nil, or_false] at hb
      rcases hb with rfl | rfl | rfl
      · exact ⟨Or.inr ⟨rfl, _, rfl, Or.inl rfl⟩, ambFrame_ortho⟩
      · exact ⟨Or.inl rfl, turnedFrame_ortho⟩
      · cases hs) (by decide +kernel)
  exact absurd this (by decide +kernel)

/-- **C83** a mesh made of coordinates in a frame does not show the places of these coordinates. -/
theorem C83_mesh_false : ¬ ∀ (F : CFrame ℚ) (X : List (V3 ℚ)) (m : List (FBlock ℚ)) (c : FCloud ℚ), F.Ortho →
    newMesh (some F) 2 (.spatial X) = some m → framedPoints m [] = some c → c.show none = X.map F.place := by
  intro h
  obtain ⟨m, c, h1, h2, h3⟩ := C83_mesh_twice turnedFrame_ortho 2 [⟨1, 0, 0⟩]
  have := h turnedFrame [⟨1, 0, 0⟩] m c turnedFrame_ortho h1 h2
  rw [h3] at this
  exact absurd this (by decide +kernel)

/-- **C83** planar coordinates are not embedded if there is no frame. -/
theorem C83_planar_false : ¬ ∀ (frame : Option (CFrame ℚ)) (l : List (ℚ × ℚ)),
    ∃ X : List (V3 ℚ), storeCoords frame 2 (.planar l) = some (.spatial X) := by
  intro h
  obtain ⟨X, hX⟩ := h none []
  cases hX

example : storeCoords (some turnedFrame) 2 (.planar [(1, 0)]) = some (.spatial [⟨1, 3, 3⟩]) := by decide +kernel

/-- A block of cells beneath points with ids that are not consecutive. -/
def cellsMesh : List (FBlock ℚ) :=
  [⟨[], some turnedFrame, some ⟨[⟨0, 0, 0⟩, ⟨1, 0, 0⟩, ⟨1, 1, 0⟩], [4, 2, 7], none⟩, none⟩, ⟨[0], none, none, some [[7, 4]]⟩]

example : (cellPoints cellsMesh [0]).map FCloud.inds = some [4, 7] := by decide +kernel
example : (cellPoints cellsMesh [0]).map FCloud.x = some [⟨0, 0, 0⟩, ⟨1, 1, 0⟩] := by decide +kernel

/-- **C83** (disagreement) the points of a block and the block itself can have different frames: each looks for its own one
first. -/
theorem C83_pointdata_false : ¬ ∀ (b : FBlock ℚ) (q : FPts ℚ), b.pts = some q → b.ownFrame = some (pdFrame b q) := by
  intro h
  have := h ⟨[], some ambFrame, some ⟨[], [], some ⟨⟨0, 1, 0⟩, ⟨-1, 0, 0⟩, ⟨0, 0, 1⟩, 0⟩⟩, none⟩ _ rfl
  revert this; decide +kernel

end PM
