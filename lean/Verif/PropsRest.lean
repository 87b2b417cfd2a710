import Verif.PropsExplode
import Verif.PropsAreas
import Verif.PropsJacobian
import Verif.PropsSkin
import Verif.PropsTriang
import Verif.PropsTopo

/-!
# Whole functions whose parts are treated elsewhere

`decompose` (utils.py 630-692), `PolyCell2d.area` (cell.py 760-764), `jacobian_det_bulk_1d` (utils.py 747-767),
`extract_surface(detach=True)` (cell.py 943-944), `arrays_to_imap_as_dict` (topo.py 741-761) and `edges_tri` for several
triangulations (tri.py 507-514).
-/

namespace PM

/-! ## C23: decompose -/

/-- **C23** `decompose` as called: the array given is returned with the position of every node that the cells use, and is left
as it was everywhere else. -/
theorem C23_decompose_call {α : Type} {coords : List α} {topo : Topo} {E : List (List α)} (hE : IsCellsCoords coords topo E)
    {out : List α} (hin : ∀ r ∈ topo, ∀ n ∈ r, n < coords.length ∧ n < out.length) :
    ∃ out', decompose E topo out = some out' ∧ out'.length = out.length ∧ (∀ n, UsesNode topo n → out'[n]? = coords[n]?) ∧
      ∀ n, ¬ UsesNode topo n → out'[n]? = out[n]? := by
  obtain ⟨w, h1, h2⟩ := C23_decompose hE hin
  obtain ⟨o, h3, h4⟩ := h2 w (List.Perm.refl _)
  exact ⟨o, by simp [decompose, h1, h3], h4⟩

/-- **C23** All nodes used: the original array comes back, whatever the array to be filled contained. -/
theorem C23_decompose_all {α : Type} {coords : List α} {topo : Topo} {E : List (List α)} (hE : IsCellsCoords coords topo E)
    {out : List α} (hin : ∀ r ∈ topo, ∀ n ∈ r, n < coords.length) (hall : ∀ n, n < coords.length → UsesNode topo n)
    (hlen : out.length = coords.length) : decompose E topo out = some coords := by
  obtain ⟨o, h1, h2, h3, -⟩ := C23_decompose_call hE (out := out) fun r hr n hn => ⟨hin r hr n hn, by rw [hlen]; exact hin r hr n hn⟩
  rw [h1]
  congr 1
  apply List.ext_getElem?
  intro n
  by_cases hn : n < coords.length
  · exact h3 n (hall n hn)
  · rw [List.getElem?_eq_none (by omega), List.getElem?_eq_none (by omega)]

example : decompose [[10, 11], [12, 11]] [[0, 1], [2, 1]] [7, 8, 9] = some [10, 11, 12] := by decide

/-! ## C03: dictionaries made of two arrays -/

/-- **C03** The dictionary made of two arrays, with different numbers in the first, sends the k-th number of
the first to the k-th number of the second and has no other key. -/
theorem C03_imap_arrays {source target : List Nat} (hs : source.Nodup) :
    (∀ (k a b : Nat), source[k]? = some a → target[k]? = some b → (arraysToImapAsDict source target).get? a = some b) ∧
    ∀ a, a ∉ source → (arraysToImapAsDict source target).get? a = none := by
  have hz : ∀ (x : Nat × Nat), x ∈ source.zip target ↔ ∃ k : Nat, source[k]? = some x.1 ∧ target[k]? = some x.2 := by
    intro x
    rw [List.mem_iff_getElem?]
    simp only [List.getElem?_zip_eq_some]
  have hc : Consistent (source.zip target) := by
    intro x hx y hy hxy
    obtain ⟨i, h1, h2⟩ := (hz x).1 hx
    obtain ⟨j, h3, h4⟩ := (hz y).1 hy
    have hi : i < source.length := (List.getElem?_eq_some_iff.1 h1).1
    have : i = j := (List.getElem?_inj hi hs).1 (by rw [h1, h3, hxy])
    subst this
    rw [h2] at h4
    exact Option.some.inj h4
  constructor
  · intro k a b ha hb
    exact dictFold_mem hc ((hz (a, b)).2 ⟨k, ha, hb⟩)
  · intro a ha
    unfold arraysToImapAsDict
    rw [dictFold_not_mem]
    · rfl
    · intro x hx hxa
      obtain ⟨k, h1, -⟩ := (hz x).1 hx
      exact ha (hxa ▸ List.mem_of_getElem? h1)

/-- **C03** Without the condition the last of the equal numbers counts. -/
theorem C03_imap_arrays_false : ¬ ∀ (source target : List Nat) (k a b : Nat), source.length = target.length →
    source[k]? = some a → target[k]? = some b → (arraysToImapAsDict source target).get? a = some b :=
  fun h => absurd (h [4, 4] [1, 2] 0 4 1 rfl rfl rfl) (by decide)

/-- **C03** Renumbering a mesh by such a dictionary and back by the dictionary of the exchanged arrays changes nothing. -/
theorem C03_imap_arrays_back {source target : List Nat} (hs : source.Nodup) (ht : target.Nodup)
    (hl : source.length = target.length) {topo : Topo} (hin : ∀ r ∈ topo, ∀ n ∈ r, n ∈ source) :
    ∃ t, rewire topo (.dict (arraysToImapAsDict source target)) false = some t ∧
      rewire t (.dict (arraysToImapAsDict target source)) false = some topo := by
  have f1 := (C03_imap_arrays (target := target) hs).1
  have f2 := (C03_imap_arrays (target := source) ht).1
  let g : Nat → Nat := fun a => ((arraysToImapAsDict source target).get? a).getD 0
  have hg : ∀ a ∈ source, (arraysToImapAsDict source target).get? a = some (g a) ∧
      (arraysToImapAsDict target source).get? (g a) = some a := by
    intro a ha
    obtain ⟨k, hk, rfl⟩ := List.getElem_of_mem ha
    have hk' : k < target.length := hl ▸ hk
    have e := f1 k _ _ (List.getElem?_eq_getElem hk) (List.getElem?_eq_getElem hk')
    refine ⟨by simp [g, e], ?_⟩
    have : g source[k] = target[k] := by simp [g, e]
    rw [this]
    exact f2 k _ _ (List.getElem?_eq_getElem hk') (List.getElem?_eq_getElem hk)
  refine ⟨topo.map (List.map g), ?_, ?_⟩
  · have := remapTopo_some (topo := topo) (imap := .dict (arraysToImapAsDict source target)) (g := g)
      (fun r hr x hx => (hg x (hin r hr x hx)).1)
    simpa [rewire] using this
  · let h : Nat → Nat := fun a => ((arraysToImapAsDict target source).get? a).getD 0
    have e2 : remapTopo (topo.map (List.map g)) (.dict (arraysToImapAsDict target source)) =
        some ((topo.map (List.map g)).map (List.map h)) := by
      apply remapTopo_some
      intro r hr x hx
      obtain ⟨r', hr', rfl⟩ := List.mem_map.1 hr
      obtain ⟨y, hy, rfl⟩ := List.mem_map.1 hx
      have := (hg y (hin r' hr' y hy)).2
      simp [IMap.get?, h, this]
    have e3 : (topo.map (List.map g)).map (List.map h) = topo := by
      rw [List.map_map]
      conv_rhs => rw [← List.map_id topo]
      apply List.map_congr_left
      intro r hr
      simp only [Function.comp, List.map_map, id]
      conv_rhs => rw [← List.map_id r]
      apply List.map_congr_left
      intro y hy
      have := (hg y (hin r hr y hy)).2
      simp [h, this]
    rw [e3] at e2
    simpa [rewire] using e2

example : arraysToImapAsDict [4, 7, 2] [0, 5, 7] = [(4, 0), (7, 5), (2, 7)] := by decide

/-! ## C75: sides of the triangles of several triangulations -/

/-- **C75** The sides of the triangles of several lists of triangles: those of the k-th triangle of the j-th list are the pairs
of its first and second, second and third, third and first node. -/
theorem C75_sides_lists {pop : List Topo} (h : ∀ T ∈ pop, ∀ t ∈ T, t.length = 3) :
    ∃ S, edgesTriPop pop = some S ∧ S.length = pop.length ∧
      ∀ (j : Nat) (T : Topo), pop[j]? = some T → ∃ s, S[j]? = some s ∧ s.length = T.length ∧
        ∀ (k a b c : Nat), T[k]? = some [a, b, c] → s[k]? = some [[a, b], [b, c], [c, a]] := by
  let f : List Nat → List (List Nat) := fun t => [[t.getD 0 0, t.getD 1 0], [t.getD 1 0, t.getD 2 0], [t.getD 2 0, t.getD 0 0]]
  have he : ∀ T ∈ pop, edgesTri T = some (T.map f) := by
    intro T hT
    apply mapM_some
    intro t ht
    match t, h T hT t ht with
    | [a, b, c], _ => rfl
  refine ⟨pop.map (List.map f), mapM_some he, by simp, ?_⟩
  intro j T hT
  refine ⟨T.map f, by simp [hT], by simp, ?_⟩
  intro k a b c hk
  simp [hk, f]

example : edgesTriPop [[[0, 1, 2]], [[3, 4, 5], [4, 3, 6]]] =
    some [[[[0, 1], [1, 2], [2, 0]]], [[[3, 4], [4, 5], [5, 3]], [[4, 3], [3, 6], [6, 4]]]] := by decide

/-! ## C71: the area of all cells -/

/-- **C71** `area()` is the sum of the areas of all triangles of all cells, each seen along the normal of its cell. -/
theorem C71_area_sum {coords : List (V3 ℝ)} {topo : Topo} {Fs : List Frame} {trimap : List (List Nat)} {pts : List (List (V3 ℝ))}
    (hp : topo.mapM (fun row => row.mapM fun n => coords[n]?) = some pts) (hne : topo ≠ []) (hF : Fs.length = topo.length)
    (hI : ∀ F ∈ Fs, IsFrame F) (h3 : ∀ t ∈ trimap, t.length = 3)
    (hin : ∀ row ∈ topo, ∀ t ∈ trimap, ∀ q ∈ t, q < row.length) :
    area2d coords topo Fs trimap =
      some ((pts.zip Fs).map fun q => ((cutTris trimap q.1).map (seenArea q.2.k)).sum).sum := by
  obtain ⟨A, h1, h2, h4⟩ := C71_areas hp hne hF hI h3 hin
  have hpl := mapM_length hp
  have : A = (pts.zip Fs).map fun q => ((cutTris trimap q.1).map (seenArea q.2.k)).sum := by
    apply List.ext_getElem (by simp; omega)
    intro e he he'
    have e1 : e < pts.length := by omega
    have e2 : e < Fs.length := by omega
    have := h4 e _ _ (List.getElem?_eq_getElem e1) (List.getElem?_eq_getElem e2)
    rw [List.getElem?_eq_getElem he] at this
    simpa using this
  rw [area2d, h1, Option.map_some, this]

/-- **C71** All triangles flat in the planes of their cells and turned like them: `area()` is the sum of their areas. -/
theorem C71_area_flat {coords : List (V3 ℝ)} {topo : Topo} {Fs : List Frame} {trimap : List (List Nat)} {pts : List (List (V3 ℝ))}
    (hp : topo.mapM (fun row => row.mapM fun n => coords[n]?) = some pts) (hne : topo ≠ []) (hF : Fs.length = topo.length)
    (hI : ∀ F ∈ Fs, IsFrame F) (h3 : ∀ t ∈ trimap, t.length = 3)
    (hin : ∀ row ∈ topo, ∀ t ∈ trimap, ∀ q ∈ t, q < row.length)
    (hfl : ∀ q ∈ pts.zip Fs, ∀ t ∈ cutTris trimap q.1, LiesFlat q.2.k t) :
    area2d coords topo Fs trimap = some (((pts.flatMap (cutTris trimap)).map spaceArea).sum) := by
  rw [C71_area_sum hp hne hF hI h3 hin]
  congr 1
  have hpl := mapM_length hp
  have e1 : ((pts.zip Fs).map fun q => ((cutTris trimap q.1).map (seenArea q.2.k)).sum) =
      (pts.zip Fs).map fun q => ((cutTris trimap q.1).map spaceArea).sum := by
    apply List.map_congr_left
    intro q hq
    refine C71_flat ?_ (hfl q hq)
    exact (hI q.2 (List.of_mem_zip hq).2).kk
  have e2 : ((pts.zip Fs).map fun q => ((cutTris trimap q.1).map spaceArea).sum) =
      pts.map fun P => ((cutTris trimap P).map spaceArea).sum := by
    have : pts = (pts.zip Fs).map Prod.fst := (List.map_fst_zip (by omega)).symm
    conv_rhs => rw [this]
    rw [List.map_map]; rfl
  rw [e1, e2, List.map_flatMap, List.flatMap_def, List.sum_flatten, List.map_map]
  rfl

/-! ## C67: determinants of the matrices of lines -/

/-- **C67** `jacobian_det_bulk_1d` gives the determinants of matrices of one row and one column. -/
theorem C67_det_line {K : Type} [Field K] {jac : List (List (List (List K)))} (h : ∀ E ∈ jac, ∀ M ∈ E, ∃ a, M = [[a]]) :
    jacobianDetBulk1d jac = jac.mapM (fun E => E.mapM detL) := by
  let d : List (List K) → K := fun M => (M.headD []).headD 0
  have e1 : jacobianDetBulk1d jac = some (jac.map (List.map d)) :=
    mapM_some fun E hE => mapM_some fun M hM => by
      obtain ⟨a, rfl⟩ := h E hE M hM
      rfl
  have e2 : (jac.mapM fun E => E.mapM detL) = some (jac.map (List.map d)) :=
    mapM_some fun E hE => mapM_some fun M hM => by
      obtain ⟨a, rfl⟩ := h E hE M hM
      rfl
  rw [e1, e2]

/-- **C67** `Line.jacobian` followed by the determinants, straight lines with evenly placed nodes: the length of the tangent at
every point. -/
theorem C67_line_det {lc : List (V3 Int)} {N : List PE} (hN : Interpolates ℝ 1 lc N) (h0 : lc.head? = some ⟨-2, 0, 0⟩)
    (h1 : lc.getLast? = some ⟨2, 0, 0⟩) {coords : List (V3 ℝ)} {topo : Topo} {Fs : List Frame} {pts : List (List (V3 ℝ))}
    (hp : topo.mapM (fun row => row.mapM fun n => coords[n]?) = some pts) (hF : Fs.length = topo.length)
    (hFr : ∀ F ∈ Fs, IsFrame F) (hs : ∀ P ∈ pts, ∃ a b : V3 ℝ, P = lc.map fun c => a + (half c : V3 ℝ).x • b) (xs : List (V3 ℝ)) :
    ∃ D, (lineJacobian xs.length coords topo Fs).bind jacobianDetBulk1d = some D ∧ D.length = topo.length ∧
      ∀ (e : Nat) (P : List (V3 ℝ)), pts[e]? = some P → ∃ E, D[e]? = some E ∧ E.length = xs.length ∧
        ∀ (g : Nat) (x : V3 ℝ), xs[g]? = some x → ∃ t, IsTangent N P .r x t ∧ E[g]? = some (vnorm t) := by
  obtain ⟨J, j1, j2, j3⟩ := C67_line hN h0 h1 hp hF hFr hs xs
  have hpl := mapM_length hp
  have hM : ∀ E ∈ J, ∀ M ∈ E, ∃ a, M = [[a]] := by
    intro E hE M hM
    obtain ⟨e, he, rfl⟩ := List.getElem_of_mem hE
    have hep : e < pts.length := by omega
    obtain ⟨E', h1, h2, h3⟩ := j3 e _ (List.getElem?_eq_getElem hep)
    rw [List.getElem?_eq_getElem he, Option.some.injEq] at h1
    subst h1
    obtain ⟨g, hg, rfl⟩ := List.getElem_of_mem hM
    have hgx : g < xs.length := by omega
    obtain ⟨t, -, ht⟩ := h3 g _ (List.getElem?_eq_getElem hgx)
    rw [List.getElem?_eq_getElem hg, Option.some.injEq] at ht
    exact ⟨_, ht⟩
  let d : List (List ℝ) → ℝ := fun M => (M.headD []).headD 0
  have hd : jacobianDetBulk1d J = some (J.map (List.map d)) := by
    apply mapM_some
    intro E hE
    apply mapM_some
    intro M hM'
    obtain ⟨a, rfl⟩ := hM E hE M hM'
    rfl
  refine ⟨J.map (List.map d), by rw [j1]; exact hd, by simpa using j2, ?_⟩
  intro e P hP
  obtain ⟨E, h1, h2, h3⟩ := j3 e P hP
  refine ⟨E.map d, by simp [h1], by simpa using h2, ?_⟩
  intro g x hx
  obtain ⟨t, ht, hE⟩ := h3 g x hx
  exact ⟨t, ht, by simp [hE, d]⟩

example : jacobianDetBulk1d [[[[1 / 2]], [[1 / 2]]], [[[3]], [[(3 : ℚ)]]]] = some [[1 / 2, 1 / 2], [3, 3]] := by decide +kernel

/-! ## C59: detached surfaces -/

/-- **C59** The detached surface of a block has, triangle by triangle and corner by corner, the same points as the surface with
the node numbers of the mesh. -/
theorem C59_detached {query : List (V3 ℝ) → V3 ℝ → Option Nat} (hq : NearestQuery query) {coords : List (V3 ℝ)}
    (hne : coords ≠ []) {faces : Topo} {s : PvSurf} (hs : VtkSurface coords faces s) :
    ∃ T, extractSurface query coords s = some (coords, T) ∧
      T.map List.length = (extractSurfaceDetached s).2.map List.length ∧
      ∀ (c k n m : Nat), nodeAt (extractSurfaceDetached s).2 c k = some n → nodeAt T c k = some m →
        ∃ p, (extractSurfaceDetached s).1[n]? = some p ∧ coords[m]? = some p := by
  obtain ⟨g, hlen, hg, hin, -⟩ := hs
  obtain ⟨R, h1, h2, h3⟩ := C32_closest_many (targets := s.pts) hq hne
  have e1 : remapTopo s.tris (.arr R) = some (s.tris.map (List.map fun k => R.getD k 0)) := by
    have := remapTopo_some (topo := s.tris) (imap := .arr R) (g := fun k => R.getD k 0) ?_
    · exact this
    · intro row hr x hx
      have : x < R.length := h2 ▸ hin row hr x hx
      simp [IMap.get?, List.getD, List.getElem?_eq_getElem this]
  refine ⟨s.tris.map (List.map fun k => R.getD k 0), ?_, ?_, ?_⟩
  · rw [extractSurface, h1]
    simp [rewire, e1]
  · simp [extractSurfaceDetached, Function.comp_def]
  · intro c k n m hn hm
    have hnl : n < s.pts.length := by
      have := mem_flatten_of_nodeAt hn
      obtain ⟨r, hr, hnr⟩ := List.mem_flatten.1 this
      exact hin r hr n hnr
    have hmn : m = R.getD n 0 := by
      have hn' : nodeAt s.tris c k = some n := hn
      rw [nodeAt_map, hn'] at hm
      exact (Option.some.inj hm).symm
    have hnR : n < R.length := by omega
    have hmR : R[n]? = some m := by rw [hmn, List.getD_eq_getElem?_getD, List.getElem?_eq_getElem hnR]; rfl
    have hp := List.getElem?_eq_getElem hnl
    refine ⟨s.pts[n], hp, ?_⟩
    obtain ⟨q, hq1, hq2⟩ := (h3 n _ _ hp hmR).ex
    have hng : n < g.length := by omega
    have hcp := hg n _ _ (List.getElem?_eq_getElem hng) hp
    have := hq2 _ (List.mem_of_getElem? hcp)
    rw [dist3_self] at this
    rw [hq1, eq_of_dist3_le this]

/-! ## C04: detach -/

/-- **C04** exactly: the kept points are those of the used nodes in their order, and every entry of the new topology is the place of the old node
among the kept ones, also if points coincide; the widths of the cells stay. -/
theorem C04_detach_exact {α : Type} (coords : List α) (topo : Topo) (h : ∀ n, UsesNode topo n → n < coords.length) :
    ∃ (c : List α) (t : Topo) (keep : List Nat), detach coords topo none = some (c, t) ∧ keep.Pairwise (· < ·) ∧
      (∀ n, n ∈ keep ↔ UsesNode topo n) ∧ c.map some = keep.map (fun n => coords[n]?) ∧ t.map List.length = topo.map List.length ∧
      ∀ i j n, nodeAt topo i j = some n → ∃ k, nodeAt t i j = some k ∧ keep[k]? = some n := by
  obtain ⟨h1, h2, h3, h4, h5⟩ := C01_regularize topo
  obtain ⟨c, hc, hcl, hcg⟩ := gather?_eq_some (a := coords) (inds := npUnique topo.flatten) (by
    intro i hi; exact h i ((h2 i).1 hi))
  have ht : remapTopo topo (.dict (indsToInvmapAsDict (npUnique topo.flatten))) = some (regularize topo).1 := by
    rw [regularize_fst]
    apply remapTopo_some
    intro row hr x hx
    have : x ∈ npUnique topo.flatten := mem_npUnique.2 (List.mem_flatten.2 ⟨row, hr, hx⟩)
    simp [IMap.get?, invmap_get? (nodup_npUnique _), this]
  refine ⟨c, (regularize topo).1, (regularize topo).2, ?_, h1, h2, ?_, h4, h5⟩
  · simp [detach, detachMeshBulk, hc, ht]
  · apply List.ext_getElem?
    intro k
    have hids : (regularize topo).2 = npUnique topo.flatten := rfl
    rw [hids, List.getElem?_map, List.getElem?_map]
    cases hk : (npUnique topo.flatten)[k]? with
    | none =>
      have : c[k]? = none := by
        rw [List.getElem?_eq_none_iff] at hk ⊢
        omega
      rw [this]; rfl
    | some n =>
      have e := hcg k n hk
      have hn : n < coords.length := h n ((h2 n).1 (List.mem_of_getElem? hk))
      rw [e, List.getElem?_eq_getElem hn]
      simp [List.getElem?_eq_getElem hn]

/-- **C04** exactly, with global ids: the kept rows are those whose id is used, in the order of the rows, and every entry of the new topology is the
place of the row with the old id among the kept ones. -/
theorem C04_detach_inds_exact {α : Type} (coords : List α) (topo : Topo) (ids : List Nat) (hnd : ids.Nodup)
    (hl : ids.length = coords.length) (h : ∀ n, UsesNode topo n → n ∈ ids) :
    ∃ (c : List α) (t : Topo) (keep : List Nat), detach coords topo (some ids) = some (c, t) ∧ keep.Pairwise (· < ·) ∧
      (∀ p, p ∈ keep ↔ ∃ n, ids[p]? = some n ∧ UsesNode topo n) ∧ c.map some = keep.map (fun p => coords[p]?) ∧
      t.map List.length = topo.map List.length ∧
      ∀ i j n, nodeAt topo i j = some n → ∃ k p, nodeAt t i j = some k ∧ keep[k]? = some p ∧ ids[p]? = some n := by
  obtain ⟨t0, ht0, hn0, -⟩ := (C03_rewire_inverse topo ids hnd).1 h
  have hlen : t0.map List.length = topo.map List.length := by
    have := (C03_rewire topo (.dict (indsToInvmapAsDict ids))).2 t0 (by
      simpa [rewire] using ht0)
    exact this.1
  have hback : ∀ i j k, nodeAt t0 i j = some k → ∃ n, nodeAt topo i j = some n := by
    intro i j k hk
    unfold nodeAt at hk ⊢
    cases hr : t0[i]? with
    | none => simp [hr] at hk
    | some r0 =>
      simp [hr] at hk
      have hli : (t0.map List.length)[i]? = some r0.length := by simp [hr]
      rw [hlen, List.getElem?_map] at hli
      cases hr1 : topo[i]? with
      | none => simp [hr1] at hli
      | some r1 =>
        simp [hr1] at hli
        have : j < r1.length := by
          rw [hli]; exact (List.getElem?_eq_some_iff.1 hk).1
        exact ⟨r1[j], by simp [List.getElem?_eq_getElem this]⟩
  have huse : ∀ p, UsesNode t0 p ↔ ∃ n, ids[p]? = some n ∧ UsesNode topo n := by
    intro p
    constructor
    · rintro ⟨row, hr, hk⟩
      obtain ⟨i, j, hij⟩ := exists_nodeAt_of_mem (List.mem_flatten.2 ⟨row, hr, hk⟩)
      obtain ⟨n, hn⟩ := hback i j p hij
      obtain ⟨k', hk', hidk⟩ := hn0 i j n hn
      rw [hij] at hk'
      obtain rfl := Option.some.inj hk'
      exact ⟨n, hidk, List.mem_flatten.1 (mem_flatten_of_nodeAt hn)⟩
    · rintro ⟨n, hp, row, hr, hk⟩
      obtain ⟨i, j, hij⟩ := exists_nodeAt_of_mem (List.mem_flatten.2 ⟨row, hr, hk⟩)
      obtain ⟨k', hk', hidk⟩ := hn0 i j n hij
      have : k' = p := (List.getElem?_inj (List.getElem?_eq_some_iff.1 hidk).1 hnd).1 (hidk.trans hp.symm)
      rw [← this]
      exact List.mem_flatten.1 (mem_flatten_of_nodeAt hk')
  have hlt : ∀ k, UsesNode t0 k → k < coords.length := by
    intro k hk
    obtain ⟨n, hn, -⟩ := (huse k).1 hk
    rw [← hl]; exact (List.getElem?_eq_some_iff.1 hn).1
  obtain ⟨c, t, keep, hd, hs, hm, hc, hw, hg⟩ := C04_detach_exact coords t0 hlt
  refine ⟨c, t, keep, ?_, hs, fun p => (hm p).trans (huse p), hc, hw.trans hlen, ?_⟩
  · simp only [detach, ht0, Option.bind_eq_bind, Option.bind_some]; exact hd
  · intro i j n hn
    obtain ⟨p, hp, hid⟩ := hn0 i j n hn
    obtain ⟨k, hk, hkp⟩ := hg i j p hp
    exact ⟨k, p, hk, hkp, hid⟩

/-- A case: two rows at one place stay two rows, the row that is not used is dropped. -/
example : detach ["a", "b", "b", "c"] [[7, 5], [9]] (some [5, 6, 7, 9]) = some (["a", "b", "c"], [[1, 0], [2]]) := by decide +kernel

end PM
