import Verif.Skin
import Verif.PropsTopo
import Verif.PropsFrames
import Verif.Cells

/-!
# Property C59: the surface of a solid mesh
-/

namespace PM

/-! ## specification -/

/-- Number of rows with the nodes `s`, in any order. -/
def occ (rows : Topo) (s : List Nat) : Nat := rows.countP fun t => s.isPerm t

/-- The faces of all cells, by a table of local faces. -/
def facesOf (ids : List (List Nat)) (topo : Topo) : Topo := topo.flatMap fun c => ids.map fun f => f.map fun q => c.getD q 0

/-- `polys` are exactly those faces that belong to one cell only, each once. -/
def IsSkin (faces polys : Topo) : Prop := ∀ s, occ polys s = if occ faces s = 1 then 1 else 0

/-- Splitting of a polygon into triangles: triangles stay, quadrilaterals are cut along one of their diagonals. -/
inductive IsTriang : List Nat → Topo → Prop
  | tri (a b c : Nat) : IsTriang [a, b, c] [[a, b, c]]
  | quad (a b c d : Nat) : IsTriang [a, b, c, d] [[a, b, c], [a, c, d]]
  | quad' (a b c d : Nat) : IsTriang [a, b, c, d] [[a, b, d], [b, c, d]]

/-- The triangles are the faces belonging to one cell only, each split into triangles, in any order. -/
def IsSkinTri (faces tris : Topo) : Prop :=
  ∃ (polys : Topo) (parts : List Topo), IsSkin faces polys ∧ List.Forall₂ IsTriang polys parts ∧ tris.Perm parts.flatten

/-- The contract of the external surface extraction: every point of the surface is a point of the mesh, and with the
numbers of these points the triangles are the skin of the block. -/
def VtkSurface (coords : List (V3 ℝ)) (faces : Topo) (s : PvSurf) : Prop :=
  ∃ g : List Nat, g.length = s.pts.length ∧
    (∀ (k n : Nat) (p : V3 ℝ), g[k]? = some n → s.pts[k]? = some p → coords[n]? = some p) ∧
    (∀ t ∈ s.tris, ∀ k ∈ t, k < s.pts.length) ∧ IsSkinTri faces (s.tris.map (List.map fun k => g.getD k 0))

/-- The contract of the KD-tree. -/
def NearestQuery (query : List (V3 ℝ) → V3 ℝ → Option Nat) : Prop :=
  ∀ cloud p, cloud ≠ [] → ∃ i, query cloud p = some i ∧ IsNearest cloud p i

/-! ## one block -/

theorem dist3_self (p : V3 ℝ) : dist3 p p = 0 := by simp [dist3]

theorem eq_of_dist3_le {p q : V3 ℝ} (h : dist3 p q ≤ 0) : p = q := by
  have h0 : dist3 p q = 0 := le_antisymm h (Real.sqrt_nonneg _)
  unfold dist3 at h0
  rw [Real.sqrt_eq_zero (by positivity)] at h0
  have hx := sq_nonneg (p.x - q.x)
  have hy := sq_nonneg (p.y - q.y)
  have hz := sq_nonneg (p.z - q.z)
  have e1 : (p.x - q.x) ^ 2 = 0 := by linarith
  have e2 : (p.y - q.y) ^ 2 = 0 := by linarith
  have e3 : (p.z - q.z) ^ 2 = 0 := by linarith
  rw [sq_eq_zero_iff, sub_eq_zero] at e1 e2 e3
  ext <;> assumption

/-- The nearest point to a point of a cloud without repeated points is that point. -/
theorem nearest_self {coords : List (V3 ℝ)} (hnd : coords.Nodup) {n i : Nat} {p : V3 ℝ} (hp : coords[n]? = some p)
    (hi : IsNearest coords p i) : i = n := by
  obtain ⟨q, hq, h⟩ := hi.ex
  have h1 := h p (List.mem_of_getElem? hp)
  rw [dist3_self] at h1
  have := eq_of_dist3_le h1
  subst this
  obtain ⟨h2, h3⟩ := List.getElem?_eq_some_iff.1 hp
  obtain ⟨h4, h5⟩ := List.getElem?_eq_some_iff.1 hq
  exact (List.Nodup.getElem_inj_iff hnd).1 (h5.trans h3.symm)

theorem extract_eq {query : List (V3 ℝ) → V3 ℝ → Option Nat} (hq : NearestQuery query) {coords : List (V3 ℝ)}
    (hnd : coords.Nodup) (hne : coords ≠ []) {faces : Topo} {s : PvSurf} (hs : VtkSurface coords faces s) :
    ∃ T, extractSurface query coords s = some (coords, T) ∧ IsSkinTri faces T := by
  obtain ⟨g, hlen, hg, hin, hskin⟩ := hs
  have hR : closestPoints query coords s.pts = some g := by
    obtain ⟨R, h1, h2, h3⟩ := C32_closest_many (targets := s.pts) hq hne
    rw [h1]
    congr 1
    refine List.ext_getElem (h2.trans hlen.symm) fun k hk hk' => ?_
    have hkp : k < s.pts.length := hlen ▸ hk'
    exact nearest_self hnd (hg k _ _ (List.getElem?_eq_getElem hk') (List.getElem?_eq_getElem hkp))
      (h3 k _ _ (List.getElem?_eq_getElem hkp) (List.getElem?_eq_getElem hk))
  refine ⟨s.tris.map (List.map fun k => g.getD k 0), ?_, hskin⟩
  have : remapTopo s.tris (.arr g) = some (s.tris.map (List.map fun k => g.getD k 0)) := by
    have := remapTopo_some (topo := s.tris) (imap := .arr g) (g := fun k => g.getD k 0) ?_
    · exact this
    · intro row hr x hx
      have : x < g.length := hlen ▸ hin row hr x hx
      simp [IMap.get?, List.getD, List.getElem?_eq_getElem this]
  rw [extractSurface, hR]
  simp [rewire, this]

/-- **C59** One block of cells, points without repetition: the surface is made of exactly those faces that belong to one
cell only (split into triangles), with the node numbers of the mesh. -/
theorem C59_block {query : List (V3 ℝ) → V3 ℝ → Option Nat} (hq : NearestQuery query) {coords : List (V3 ℝ)}
    (hnd : coords.Nodup) (hne : coords ≠ []) {faces : Topo} {s : PvSurf} (hs : VtkSurface coords faces s) :
    ∃ T, extractSurface query coords s = some (coords, T) ∧ meshSurface query coords [s] = some (coords, T) ∧
      IsSkinTri faces T := by
  obtain ⟨T, h1, h2⟩ := extract_eq hq hnd hne hs
  exact ⟨T, h1, by simp [meshSurface, h1, uniqueRows], h2⟩

/-! ## several blocks -/

theorem occ_append (A B : Topo) (s : List Nat) : occ (A ++ B) s = occ A s + occ B s := List.countP_append

theorem occ_pos {A : Topo} {s : List Nat} : 0 < occ A s ↔ ∃ t ∈ A, s.Perm t := by
  simp [occ, List.countP_pos_iff, List.isPerm_iff]

theorem occ_flatten_zero {L : List Topo} {s : List Nat} (h : ∀ A ∈ L, occ A s = 0) : occ L.flatten s = 0 := by
  induction L with
  | nil => rfl
  | cons A L ih =>
    rw [List.flatten_cons, occ_append, h A List.mem_cons_self, ih fun B hB => h B (List.mem_cons_of_mem _ hB)]

theorem isSkin_append {A B P Q : Topo} (h1 : IsSkin A P) (h2 : IsSkin B Q) (hd : ∀ s, occ A s = 0 ∨ occ B s = 0) :
    IsSkin (A ++ B) (P ++ Q) := by
  intro s
  rw [occ_append, occ_append, h1 s, h2 s]
  rcases hd s with h | h <;> simp [h]

/-- Blocks without common faces. -/
def Apart (facesL : List Topo) : Prop := facesL.Pairwise fun A B => ∀ s, occ A s = 0 ∨ occ B s = 0

theorem isSkin_flatten {facesL polysL : List Topo} (h : List.Forall₂ IsSkin facesL polysL) (hd : Apart facesL) :
    IsSkin facesL.flatten polysL.flatten := by
  induction h with
  | nil => intro s; simp [occ]
  | @cons A _ _ _ h1 h2 ih =>
    obtain ⟨hd1, hd2⟩ := List.pairwise_cons.1 hd
    refine isSkin_append h1 (ih hd2) fun s => ?_
    by_cases h0 : occ A s = 0
    · exact Or.inl h0
    · exact Or.inr (occ_flatten_zero fun B hB => (hd1 B hB s).resolve_left h0)

theorem isTriang_part {p : List Nat} {part : Topo} (h : IsTriang p part) (hp : p.Nodup) :
    part.Nodup ∧ ∀ t ∈ part, t.length = 3 ∧ t.Nodup ∧ t ⊆ p := by
  cases h with
  | tri a b c => exact ⟨by simp, by simp [hp]⟩
  | quad a b c d =>
    simp only [List.nodup_cons, List.mem_cons, List.not_mem_nil, or_false, not_or, not_false_eq_true, List.nodup_nil,
      and_true] at hp
    obtain ⟨⟨h1, h2, h3⟩, ⟨h4, h5⟩, h6⟩ := hp
    refine ⟨by simp [h4], ?_⟩
    intro t ht
    rcases List.mem_cons.1 ht with rfl | ht
    · simp [h1, h2, h4]
    · obtain rfl := List.mem_singleton.1 ht
      simp [h2, h3, h6]
  | quad' a b c d =>
    simp only [List.nodup_cons, List.mem_cons, List.not_mem_nil, or_false, not_or, not_false_eq_true, List.nodup_nil,
      and_true] at hp
    obtain ⟨⟨h1, h2, h3⟩, ⟨h4, h5⟩, h6⟩ := hp
    refine ⟨by simp [h1], ?_⟩
    intro t ht
    rcases List.mem_cons.1 ht with rfl | ht
    · simp [h1, h3, h5]
    · obtain rfl := List.mem_singleton.1 ht
      simp [h4, h5, h6]

theorem triang_mem {P : Topo} {parts : List Topo} (h : List.Forall₂ IsTriang P parts) {t : List Nat}
    (ht : t ∈ parts.flatten) : ∃ p part, p ∈ P ∧ IsTriang p part ∧ t ∈ part ∧ part ∈ parts := by
  induction h with
  | nil => simp at ht
  | cons h1 h2 ih =>
    rw [List.flatten_cons, List.mem_append] at ht
    rcases ht with ht | ht
    · exact ⟨_, _, List.mem_cons_self, h1, ht, List.mem_cons_self⟩
    · obtain ⟨p, part, a, b, c, d⟩ := ih ht
      exact ⟨p, part, List.mem_cons_of_mem _ a, b, c, List.mem_cons_of_mem _ d⟩

theorem triang_nodup {P : Topo} {parts : List Topo} (h : List.Forall₂ IsTriang P parts) (hnd : ∀ p ∈ P, p.Nodup)
    (hpw : P.Pairwise fun p q => ∀ t : List Nat, t.length = 3 → t.Nodup → t ⊆ p → ¬ t ⊆ q) : parts.flatten.Nodup := by
  induction h with
  | nil => simp
  | cons h1 h2 ih =>
    obtain ⟨hp1, hp2⟩ := List.pairwise_cons.1 hpw
    have hpart := isTriang_part h1 (hnd _ List.mem_cons_self)
    rw [List.flatten_cons, List.nodup_append]
    refine ⟨hpart.1, ih (fun p hp => hnd p (List.mem_cons_of_mem _ hp)) hp2, ?_⟩
    rintro t ht t' ht' rfl
    obtain ⟨q, part, hq, hqp, htp, _⟩ := triang_mem h2 ht'
    obtain ⟨a, b, c⟩ := hpart.2 t ht
    exact hp1 q hq t a b c ((isTriang_part hqp (hnd q (List.mem_cons_of_mem _ hq))).2 t htp).2.2

theorem pairwise_of_occ {P : Topo} (h : ∀ s, occ P s ≤ 1) : P.Pairwise fun p q => ¬ p.Perm q := by
  induction P with
  | nil => exact .nil
  | cons p P ih =>
    refine List.pairwise_cons.2 ⟨fun q hq hpq => ?_, ih fun s => ?_⟩
    · have h1 : 0 < occ P p := occ_pos.2 ⟨q, hq, hpq⟩
      have h2 := h p
      rw [show occ (p :: P) p = occ P p + 1 by simp [occ, List.isPerm_iff]] at h2
      omega
    · refine le_trans ?_ (h s)
      exact List.Sublist.countP_le (List.sublist_cons_self p P)

theorem occ_le_of_pairwise {P : Topo} (h : P.Pairwise fun p q => ¬ p.Perm q) (s : List Nat) : occ P s ≤ 1 := by
  induction P with
  | nil => simp [occ]
  | cons p P ih =>
    obtain ⟨h1, h2⟩ := List.pairwise_cons.1 h
    rw [show p :: P = [p] ++ P from rfl, occ_append]
    by_cases hp : s.Perm p
    · have : occ P s = 0 := by
        by_contra h0
        obtain ⟨q, hq, hsq⟩ := occ_pos.1 (Nat.pos_of_ne_zero h0)
        exact h1 q hq (hp.symm.trans hsq)
      have h3 : occ [p] s ≤ 1 := List.countP_le_length
      omega
    · have : occ [p] s = 0 := by
        by_contra h0
        obtain ⟨q, hq, hsq⟩ := occ_pos.1 (Nat.pos_of_ne_zero h0)
        obtain rfl := List.mem_singleton.1 hq
        exact hp hsq
      rw [this, Nat.zero_add]
      exact ih h2

/-- The faces of a mesh repeat no node, and two faces with three nodes in common are the same face. -/
def Thin (faces : Topo) : Prop :=
  (∀ f ∈ faces, f.Nodup) ∧
  ∀ f ∈ faces, ∀ f' ∈ faces, ∀ t : List Nat, t.length = 3 → t.Nodup → t ⊆ f → t ⊆ f' → f.Perm f'

theorem skin_mem {faces polys : Topo} (h : IsSkin faces polys) {p : List Nat} (hp : p ∈ polys) :
    occ faces p = 1 ∧ ∃ f ∈ faces, p.Perm f := by
  have h1 : 0 < occ polys p := occ_pos.2 ⟨p, hp, .refl _⟩
  have h2 := h p
  by_cases h3 : occ faces p = 1
  · exact ⟨h3, occ_pos.1 (by omega)⟩
  · rw [if_neg h3] at h2; omega

theorem skin_nodup {faces polys : Topo} {parts : List Topo} (ht : Thin faces) (h : IsSkin faces polys)
    (hp : List.Forall₂ IsTriang polys parts) : parts.flatten.Nodup := by
  have hocc : ∀ s, occ polys s ≤ 1 := by
    intro s
    rw [h s]
    by_cases h3 : occ faces s = 1
    · rw [if_pos h3]
    · rw [if_neg h3]; omega
  refine triang_nodup hp (fun p hpm => ?_) ?_
  · obtain ⟨_, f, hf, hpf⟩ := skin_mem h hpm
    exact hpf.nodup_iff.2 (ht.1 f hf)
  · refine List.Pairwise.imp_of_mem ?_ (pairwise_of_occ hocc)
    intro p q hpm hqm hpq t a b c d
    obtain ⟨_, f, hf, hpf⟩ := skin_mem h hpm
    obtain ⟨_, f', hf', hqf⟩ := skin_mem h hqm
    exact hpq (hpf.trans ((ht.2 f hf f' hf' t a b (fun x hx => hpf.subset (c hx)) fun x hx => hqf.subset (d hx)).trans hqf.symm))

theorem extract_all {query : List (V3 ℝ) → V3 ℝ → Option Nat} (hq : NearestQuery query) {coords : List (V3 ℝ)}
    (hnd : coords.Nodup) (hne : coords ≠ []) {facesL : List Topo} {blocks : List PvSurf}
    (hs : List.Forall₂ (VtkSurface coords) facesL blocks) :
    ∃ Ts : List Topo, (blocks.mapM fun s => extractSurface query coords s) = some (Ts.map fun t => (coords, t)) ∧
      List.Forall₂ IsSkinTri facesL Ts := by
  induction hs with
  | nil => exact ⟨[], by simp, .nil⟩
  | cons h1 h2 ih =>
    obtain ⟨Ts, h3, h4⟩ := ih
    obtain ⟨T, h5, h6⟩ := extract_eq hq hnd hne h1
    refine ⟨T :: Ts, ?_, .cons h6 h4⟩
    rw [List.mapM_cons, h5, h3]
    rfl

/-- The rows of the result are those of the blocks. -/
theorem mem_uniqueRows {parts : List Topo} {T : Topo} (h : uniqueRows parts = some T) (t : List Nat) :
    t ∈ T ↔ ∃ A ∈ parts, t ∈ A := by
  unfold uniqueRows at h
  split at h
  · simp at h
  · split at h
    · obtain rfl := Option.some.inj h
      rw [mem_npUnique, List.mem_flatten]
    · obtain rfl := Option.some.inj h
      rw [List.mem_flatten]

theorem meshSurface_eq {query : List (V3 ℝ) → V3 ℝ → Option Nat} (hq : NearestQuery query) {coords : List (V3 ℝ)}
    (hnd : coords.Nodup) (hne : coords ≠ []) {facesL : List Topo} {blocks : List PvSurf} (hb : blocks ≠ [])
    (hs : List.Forall₂ (VtkSurface coords) facesL blocks) :
    ∃ (Ts : List Topo) (T : Topo), meshSurface query coords blocks = some (coords, T) ∧ List.Forall₂ IsSkinTri facesL Ts ∧
      uniqueRows Ts = some T := by
  obtain ⟨Ts, h1, h2⟩ := extract_all hq hnd hne hs
  have hTs : Ts ≠ [] := by
    rintro rfl
    have := h2.length_eq
    have h3 := hs.length_eq
    rw [this] at h3
    exact hb (List.length_eq_zero_iff.1 h3.symm)
  have : ∃ T, uniqueRows Ts = some T := by
    unfold uniqueRows
    rw [if_neg (by simpa using hTs)]
    split <;> exact ⟨_, rfl⟩
  obtain ⟨T, hT⟩ := this
  refine ⟨Ts, T, ?_, h2, hT⟩
  rw [meshSurface, h1]
  simp [List.map_map, Function.comp_def, hT]

/-- **C59** Several blocks: a triangle is in the result iff it is a part of a face that belongs to exactly one cell of some
block. -/
theorem C59_blocks {query : List (V3 ℝ) → V3 ℝ → Option Nat} (hq : NearestQuery query) {coords : List (V3 ℝ)}
    (hnd : coords.Nodup) (hne : coords ≠ []) {facesL : List Topo} {blocks : List PvSurf} (hb : blocks ≠ [])
    (hs : List.Forall₂ (VtkSurface coords) facesL blocks) :
    ∃ T, meshSurface query coords blocks = some (coords, T) ∧
      (∀ t ∈ T, ∃ A ∈ facesL, ∃ p part, occ A p = 1 ∧ IsTriang p part ∧ t ∈ part) ∧
      ∀ A ∈ facesL, ∀ s, occ A s = 1 → ∃ p part, s.Perm p ∧ IsTriang p part ∧ ∀ t ∈ part, t ∈ T := by
  obtain ⟨Ts, T, h1, h2, h3⟩ := meshSurface_eq hq hnd hne hb hs
  refine ⟨T, h1, ?_, ?_⟩
  · intro t ht
    obtain ⟨B, hB, htB⟩ := (mem_uniqueRows h3 t).1 ht
    obtain ⟨k, hk, hkB⟩ := List.getElem_of_mem hB
    have hk' : k < facesL.length := by rw [h2.length_eq]; exact hk
    have := (List.forall₂_iff_get.1 h2).2 k hk' hk
    simp only [List.get_eq_getElem, hkB] at this
    obtain ⟨polys, parts, h4, h5, h6⟩ := this
    obtain ⟨p, part, h7, h8, h9, _⟩ := triang_mem h5 (h6.mem_iff.1 htB)
    exact ⟨_, List.getElem_mem hk', p, part, (skin_mem h4 h7).1, h8, h9⟩
  · intro A hA s hocc
    obtain ⟨k, hk, rfl⟩ := List.getElem_of_mem hA
    have hk' : k < Ts.length := by rw [← h2.length_eq]; exact hk
    have := (List.forall₂_iff_get.1 h2).2 k hk hk'
    simp only [List.get_eq_getElem] at this
    obtain ⟨polys, parts, h4, h5, h6⟩ := this
    have h7 := h4 s
    rw [if_pos hocc] at h7
    obtain ⟨p, hp, hsp⟩ := occ_pos.1 (by rw [h7]; exact Nat.one_pos)
    obtain ⟨m, hm, rfl⟩ := List.getElem_of_mem hp
    have hm' : m < parts.length := by rw [← h5.length_eq]; exact hm
    have h8 := (List.forall₂_iff_get.1 h5).2 m hm hm'
    refine ⟨_, _, hsp, h8, fun t ht => ?_⟩
    exact (mem_uniqueRows h3 t).2 ⟨_, List.getElem_mem hk', h6.mem_iff.2 (List.mem_flatten.2 ⟨_, List.getElem_mem hm', ht⟩)⟩

theorem skinTri_flatten {facesL Ts : List Topo} (h : List.Forall₂ IsSkinTri facesL Ts) :
    ∃ (polysL : List Topo) (partsL : List (List Topo)), List.Forall₂ IsSkin facesL polysL ∧
      List.Forall₂ IsTriang polysL.flatten partsL.flatten ∧ Ts.flatten.Perm partsL.flatten.flatten := by
  induction h with
  | nil => exact ⟨[], [], .nil, .nil, .nil⟩
  | cons h1 h2 ih =>
    obtain ⟨polys, parts, h3, h4, h5⟩ := h1
    obtain ⟨polysL, partsL, h6, h7, h8⟩ := ih
    refine ⟨polys :: polysL, parts :: partsL, .cons h3 h6, ?_, ?_⟩
    · rw [List.flatten_cons, List.flatten_cons]
      exact List.rel_append h4 h7
    · rw [List.flatten_cons, List.flatten_cons, List.flatten_append]
      exact h5.append h8

/-- **C59** Several blocks without common faces: the surface is made of exactly those faces of the mesh that belong to one
cell only. Missing: blocks with common faces. Full statement: without `hd`; disproved by `C59_blocks_false`. -/
theorem C59_blocks_partial {query : List (V3 ℝ) → V3 ℝ → Option Nat} (hq : NearestQuery query) {coords : List (V3 ℝ)}
    (hnd : coords.Nodup) (hne : coords ≠ []) {facesL : List Topo} {blocks : List PvSurf} (hb : blocks ≠ [])
    (hs : List.Forall₂ (VtkSurface coords) facesL blocks) (ht : Thin facesL.flatten) (hd : Apart facesL) :
    ∃ T, meshSurface query coords blocks = some (coords, T) ∧ IsSkinTri facesL.flatten T := by
  obtain ⟨Ts, T, h1, h2, h3⟩ := meshSurface_eq hq hnd hne hb hs
  obtain ⟨polysL, partsL, h4, h5, h6⟩ := skinTri_flatten h2
  have hskin := isSkin_flatten h4 hd
  have hnodup := h6.nodup_iff.2 (skin_nodup ht hskin h5)
  refine ⟨T, h1, _, _, hskin, h5, ?_⟩
  refine List.Perm.trans ?_ h6
  unfold uniqueRows at h3
  split at h3
  · simp at h3
  · split at h3
    · obtain rfl := Option.some.inj h3
      exact (List.perm_ext_iff_of_nodup (nodup_npUnique _) hnodup).2 fun t => mem_npUnique
    · obtain rfl := Option.some.inj h3
      exact .refl _

/-! ## witnesses -/

theorem nearestQuery_closestPoint : NearestQuery closestPoint := by
  intro cloud p h
  obtain ⟨i, q, h1, h2, h3, _⟩ := C32_closest h p
  exact ⟨i, h1, ⟨q, h2, h3⟩⟩

theorem isSkin_self {faces : Topo} (h : faces.Pairwise fun p q => ¬ p.Perm q) : IsSkin faces faces := by
  intro s
  have := occ_le_of_pairwise h s
  rcases (by omega : occ faces s = 0 ∨ occ faces s = 1) with h | h <;> simp [h]

theorem forall₂_singletons {faces : Topo} (h : ∀ f ∈ faces, f.length = 3) :
    List.Forall₂ IsTriang faces (faces.map fun f => [f]) := by
  induction faces with
  | nil => exact .nil
  | cons f faces ih =>
    refine .cons ?_ (ih fun g hg => h g (List.mem_cons_of_mem _ hg))
    match f, h f List.mem_cons_self with
    | [a, b, c], _ => exact .tri a b c

/-- Faces of a single tetrahedron: the external surface has all of them. -/
theorem isSkinTri_single {faces : Topo} (h : ∀ f ∈ faces, f.length = 3) (hp : faces.Pairwise fun p q => ¬ p.Perm q) :
    IsSkinTri faces faces :=
  ⟨faces, faces.map fun f => [f], isSkin_self hp, forall₂_singletons h, by rw [← List.flatMap_def]; simp⟩

/-- Five points. -/
noncomputable def skinPts : List (V3 ℝ) := [⟨0, 0, 0⟩, ⟨1, 0, 0⟩, ⟨0, 1, 0⟩, ⟨0, 0, 1⟩, ⟨0, 0, -1⟩]

theorem skinPts_nodup : skinPts.Nodup := by
  simp [skinPts, V3.ext_iff]
  norm_num

/-- Faces of the first and of the second tetrahedron on the two sides of the triangle 0, 1, 2. -/
def skinFaces1 : Topo := facesOf faceIdsTET4 [[0, 1, 2, 3]]
@[inherit_doc skinFaces1] def skinFaces2 : Topo := facesOf faceIdsTET4 [[0, 2, 1, 4]]

/-- The external surfaces of the two blocks, with their own numbering of points in the second. -/
noncomputable def skinSurf1 : PvSurf := ⟨[⟨0, 0, 0⟩, ⟨1, 0, 0⟩, ⟨0, 1, 0⟩, ⟨0, 0, 1⟩], [[0, 1, 3], [1, 2, 3], [2, 0, 3], [0, 2, 1]]⟩
@[inherit_doc skinSurf1] noncomputable def skinSurf2 : PvSurf :=
  ⟨[⟨0, 0, 0⟩, ⟨0, 1, 0⟩, ⟨1, 0, 0⟩, ⟨0, 0, -1⟩], [[0, 1, 3], [1, 2, 3], [2, 0, 3], [0, 2, 1]]⟩

theorem skinSurf1_ok : VtkSurface skinPts skinFaces1 skinSurf1 := by
  refine ⟨[0, 1, 2, 3], rfl, ?_, by simp [skinSurf1], isSkinTri_single (by decide) (by decide)⟩
  intro k n p hk hp
  match k with
  | 0 | 1 | 2 | 3 => simp at hk; subst hk; simpa [skinPts, skinSurf1] using hp
  | k + 4 => simp at hk

theorem skinSurf2_ok : VtkSurface skinPts skinFaces2 skinSurf2 := by
  refine ⟨[0, 2, 1, 4], rfl, ?_, by simp [skinSurf2], ?_⟩
  · intro k n p hk hp
    match k with
    | 0 | 1 | 2 | 3 => simp at hk; subst hk; simpa [skinPts, skinSurf2] using hp
    | k + 4 => simp at hk
  · exact isSkinTri_single (faces := skinFaces2) (by decide) (by decide)

/-- **C59** Two blocks with a common face: the face belongs to two cells of the mesh but is in its surface. -/
theorem C59_blocks_false : ¬ ∀ (query : List (V3 ℝ) → V3 ℝ → Option Nat) (coords : List (V3 ℝ)) (facesL : List Topo)
    (blocks : List PvSurf) (T : Topo), NearestQuery query → coords.Nodup → coords ≠ [] → blocks ≠ [] →
    List.Forall₂ (VtkSurface coords) facesL blocks → meshSurface query coords blocks = some (coords, T) →
    IsSkinTri facesL.flatten T := by
  intro hall
  have hs : List.Forall₂ (VtkSurface skinPts) [skinFaces1, skinFaces2] [skinSurf1, skinSurf2] :=
    .cons skinSurf1_ok (.cons skinSurf2_ok .nil)
  obtain ⟨T, hT, _, h2⟩ := C59_blocks nearestQuery_closestPoint skinPts_nodup (by simp [skinPts]) (by simp) hs
  obtain ⟨polys, parts, h3, h4, h5⟩ := hall _ _ _ _ T nearestQuery_closestPoint skinPts_nodup (by simp [skinPts]) (by simp) hs hT
  obtain ⟨p, part, h6, h7, h8⟩ := h2 skinFaces1 (by simp) [0, 1, 2] (by decide)
  have hlen : p.length = 3 := by rw [← h6.length_eq]; rfl
  have hpT : p ∈ T := by
    cases h7 with
    | tri a b c => exact h8 _ (by simp)
    | quad | quad' => simp at hlen
  obtain ⟨q, part', h9, h10, h11, _⟩ := triang_mem h4 (h5.mem_iff.1 hpT)
  obtain ⟨h12, f, hf, hqf⟩ := skin_mem h3 h9
  have hqlen : q.length = 3 := by
    rw [hqf.length_eq]
    exact (by decide : ∀ f ∈ [skinFaces1, skinFaces2].flatten, f.length = 3) f hf
  have hqp : q = p := by
    cases h10 with
    | tri a b c => exact (List.mem_singleton.1 h11).symm
    | quad | quad' => simp at hqlen
  have h13 : occ [skinFaces1, skinFaces2].flatten p = occ [skinFaces1, skinFaces2].flatten [0, 1, 2] := by
    unfold occ
    refine List.countP_congr fun t _ => ?_
    rw [List.isPerm_iff, List.isPerm_iff]
    exact ⟨fun h => h6.trans h, fun h => h6.symm.trans h⟩
  rw [hqp, h13] at h12
  revert h12
  decide

/-- **C59** Points at the same place: the surface gets the number of another point. -/
theorem C59_duplicates_false : ¬ ∀ (query : List (V3 ℝ) → V3 ℝ → Option Nat) (coords : List (V3 ℝ)) (faces : Topo)
    (s : PvSurf) (T : Topo), NearestQuery query → coords ≠ [] → VtkSurface coords faces s →
    extractSurface query coords s = some (coords, T) → IsSkinTri faces T := by
  intro hall
  have hs : VtkSurface (skinPts ++ [⟨0, 0, 0⟩]) (facesOf faceIdsTET4 [[5, 1, 2, 3]]) skinSurf1 := by
    refine ⟨[5, 1, 2, 3], rfl, ?_, by simp [skinSurf1], isSkinTri_single (faces := facesOf faceIdsTET4 [[5, 1, 2, 3]]) (by decide) (by decide)⟩
    intro k n p hk hp
    match k with
    | 0 | 1 | 2 | 3 => simp at hk; subst hk; simpa [skinPts, skinSurf1] using hp
    | k + 4 => simp at hk
  have hcl : ∀ (n : Nat) (p : V3 ℝ), n < 5 → (skinPts ++ [⟨0, 0, 0⟩])[n]? = some p →
      closestPoint (skinPts ++ [⟨0, 0, 0⟩]) p = some n := by
    intro n p hn hp
    have hp' : skinPts[n]? = some p := by
      rwa [List.getElem?_append_left (by simpa [skinPts] using hn)] at hp
    obtain ⟨i, q, h1, h2, h3, h4⟩ := C32_closest (coords := skinPts ++ [⟨0, 0, 0⟩]) (by simp) p
    rw [h1]
    congr 1
    have h5 := h3 p (List.mem_of_getElem? hp)
    rw [dist3_self] at h5
    obtain rfl := eq_of_dist3_le h5
    rcases lt_trichotomy i n with h | h | h
    · have : skinPts[i]? = some q := by
        rwa [List.getElem?_append_left (by simp [skinPts]; omega)] at h2
      obtain ⟨a, b⟩ := List.getElem?_eq_some_iff.1 hp'
      obtain ⟨c, d⟩ := List.getElem?_eq_some_iff.1 this
      exact (List.Nodup.getElem_inj_iff skinPts_nodup).1 (d.trans b.symm)
    · exact h
    · have := h4 n q h hp
      exact absurd this (lt_irrefl _)
  have hmap : closestPoints closestPoint (skinPts ++ [⟨0, 0, 0⟩]) skinSurf1.pts = some [0, 1, 2, 3] := by
    simp only [closestPoints, skinSurf1, List.mapM_cons, List.mapM_nil]
    rw [hcl 0 _ (by omega) (by simp [skinPts]), hcl 1 _ (by omega) (by simp [skinPts]),
      hcl 2 _ (by omega) (by simp [skinPts]), hcl 3 _ (by omega) (by simp [skinPts])]
    rfl
  have hT : extractSurface closestPoint (skinPts ++ [⟨0, 0, 0⟩]) skinSurf1 =
      some (skinPts ++ [⟨0, 0, 0⟩], [[0, 1, 3], [1, 2, 3], [2, 0, 3], [0, 2, 1]]) := by
    rw [extractSurface, hmap]
    rfl
  obtain ⟨polys, parts, h3, h4, h5⟩ := hall _ _ _ _ _ nearestQuery_closestPoint (by simp) hs hT
  obtain ⟨q, part', h9, h10, h11, _⟩ := triang_mem h4 (h5.mem_iff.1 (List.mem_cons_self : [0, 1, 3] ∈ _))
  obtain ⟨_, f, hf, hqf⟩ := skin_mem h3 h9
  have h0 : 0 ∈ q := by
    cases h10 with
    | tri a b c => simp at h11; simp [h11.1]
    | quad a b c d => simp at h11; rcases h11 with h | h <;> simp [← h.1]
    | quad' a b c d => simp at h11; rcases h11 with h | h <;> simp [← h.1]
  have h0f := hqf.subset h0
  exact (by decide : ∀ f ∈ facesOf faceIdsTET4 [[5, 1, 2, 3]], ¬ 0 ∈ f) f hf h0f

/-! ## examples -/

/-- One block, one tetrahedron. -/
example : skinPts.Nodup ∧ skinPts ≠ [] ∧ VtkSurface skinPts skinFaces1 skinSurf1 ∧ NearestQuery closestPoint :=
  ⟨skinPts_nodup, by simp [skinPts], skinSurf1_ok, nearestQuery_closestPoint⟩

/-- Two hexahedra: ten faces belong to one of them, the common one to both. -/
example : ((facesOf faceIdsH8 [[0, 1, 2, 3, 4, 5, 6, 7], [1, 8, 9, 2, 5, 10, 11, 6]]).filter fun f =>
    occ (facesOf faceIdsH8 [[0, 1, 2, 3, 4, 5, 6, 7], [1, 8, 9, 2, 5, 10, 11, 6]]) f == 1).length = 10 := by decide +kernel

theorem thin_of_triangles {faces : Topo} (h : ∀ f ∈ faces, f.length = 3 ∧ f.Nodup) : Thin faces := by
  refine ⟨fun f hf => (h f hf).2, fun f hf f' hf' t a b c d => ?_⟩
  have h1 := (b.subperm c).perm_of_length_le (by rw [a, (h f hf).1])
  have h2 := (b.subperm d).perm_of_length_le (by rw [a, (h f' hf').1])
  exact h1.symm.trans h2

/-- Two blocks that touch along an edge only. -/
example : Thin [skinFaces1, facesOf faceIdsTET4 [[0, 1, 4, 5]]].flatten ∧ Apart [skinFaces1, facesOf faceIdsTET4 [[0, 1, 4, 5]]] := by
  refine ⟨thin_of_triangles (by decide), ?_⟩
  rw [Apart, List.pairwise_pair]
  intro s
  by_contra hc
  push Not at hc
  obtain ⟨t, ht, h1⟩ := occ_pos.1 (Nat.pos_of_ne_zero hc.1)
  obtain ⟨t', ht', h2⟩ := occ_pos.1 (Nat.pos_of_ne_zero hc.2)
  exact (by decide : ∀ t ∈ skinFaces1, ∀ t' ∈ facesOf faceIdsTET4 [[0, 1, 4, 5]], ¬ t.Perm t') t ht t' ht' (h1.symm.trans h2)

end PM
