import Verif.PropsClosed
import Verif.PropsTri
import Verif.PropsTriang

/-!
# C142: the outline of plane meshes is closed and encloses the area of the cells
-/

namespace PM

/-! ## specification -/

/-- Every edge belongs to one cell, or to two that run through it in opposite directions. -/
def EdgesFit (F : Topo) : Prop := ∀ e ∈ F, occ F e = 1 ∨ (F.filter fun t => e.isPerm t).Perm [e, e.reverse]

/-- Closed lines: at every node as many edges begin as end. -/
def ClosedLines (F : Topo) : Prop := ∀ n, (F.countP fun e => decide (e[0]? = some n)) = F.countP fun e => decide (e[1]? = some n)

section
variable {K : Type} [Field K]

/-- The triangle with the nodes `r`. -/
def triAt (C : List (P2 K)) (r : List Nat) : Tri K :=
  ⟨C.getD (r.getD 0 0) ⟨0, 0⟩, C.getD (r.getD 1 0) ⟨0, 0⟩, C.getD (r.getD 2 0) ⟨0, 0⟩⟩

/-- Twice the area between the origin and an edge. -/
def sweep (C : List (P2 K)) (e : List Nat) : K :=
  let a := C.getD (e.getD 0 0) ⟨0, 0⟩; let b := C.getD (e.getD 1 0) ⟨0, 0⟩
  a.x * b.y - b.x * a.y

end

/-! ## edges of two cells cancel -/

theorem sum_edges {A : Type} [AddCommGroup A] {F : Topo} (hF : EdgesFit F) (φ : List Nat → A) (h : ∀ e ∈ F, φ e.reverse = - φ e) :
    ((outer F).map φ).sum = (F.map φ).sum := by
  refine sum_outer φ fun f hf => (hF f hf).imp_right fun hp => ?_
  rw [(hp.map φ).sum_eq]
  simp [h f hf]

theorem lines_of_cells {F : List Topo} (hw : ∀ e ∈ F.flatten, e.length = 2) (hc : ∀ c ∈ F, ClosedLines c) (hF : EdgesFit F.flatten) :
    ClosedLines (outer F.flatten) := by
  intro n
  let φ : List Nat → Int := fun e => (if e[0]? = some n then 1 else 0) - if e[1]? = some n then 1 else 0
  have hs : ∀ L : Topo, (L.map φ).sum = ((L.countP fun e => decide (e[0]? = some n) : Nat) : Int) - (L.countP fun e => decide (e[1]? = some n) : Nat) := by
    intro L
    induction L with
    | nil => rfl
    | cons e L ih =>
      rw [List.map_cons, List.sum_cons, ih, List.countP_cons, List.countP_cons]
      by_cases h0 : e[0]? = some n <;> by_cases h1 : e[1]? = some n <;> simp [φ, h0, h1] <;> omega
  have h1 := sum_edges hF φ fun e he => by
    obtain ⟨a, b, rfl⟩ := List.length_eq_two.1 (hw e he)
    simp [φ]
  have h2 : (F.flatten.map φ).sum = 0 := by
    rw [sum_flatten_map]
    apply List.sum_eq_zero
    intro x hx
    obtain ⟨l, hl, rfl⟩ := List.mem_map.1 hx
    rw [hs, hc l hl n]
    simp
  rw [h2, hs] at h1
  omega

theorem edgesTri_eq {T : Topo} (h : ∀ r ∈ T, r.length = 3) : edgesTri T = some (T.map fun r => entities edgeIdsT3 r 0) := by
  unfold edgesTri
  apply mapM_some
  intro t ht
  obtain ⟨a, b, c, rfl⟩ := List.length_eq_three.1 (h t ht)
  rfl

theorem edgesQ4_rows {T : Topo} (h : ∀ r ∈ T, r.length = 4) : edgesQ4 T = some (T.map fun r => entities edgeIdsQ4 r 0) := by
  obtain ⟨F, hF, hF'⟩ := cellCols_forall (A := 4) (B := 2) (ws := edgesQ4W) (topo := T)
    (P := fun r s => s = entities edgeIdsQ4 r 0) (by decide) fun r hr => by
      obtain ⟨a, b, c, d, rfl⟩ := len4 (h r hr)
      exact ⟨_, rfl, rfl⟩
  rw [edgesQ4, hF, forall₂_map_right hF']

/-- **C142** (triangles): the outer edges of triangles whose edges fit are closed lines. -/
theorem C142_closed_T3 {T : Topo} (h : ∀ r ∈ T, r.length = 3) {F : List Topo} (hF : edgesTri T = some F) (hfit : EdgesFit F.flatten) :
    ClosedLines (outer F.flatten) := by
  rw [edgesTri_eq h, Option.some.injEq] at hF
  subst hF
  refine lines_of_cells (fun e he => ?_) (fun c hc n => ?_) hfit
  · obtain ⟨r, -, p, hp, rfl⟩ := mem_faces.1 he
    rw [List.length_map]
    exact (by decide : ∀ p ∈ edgeIdsT3, p.length = 2) p hp
  · obtain ⟨r, hr, rfl⟩ := List.mem_map.1 hc
    obtain ⟨a, b, c, rfl⟩ := List.length_eq_three.1 (h r hr)
    show List.countP _ [[a, b], [b, c], [c, a]] = List.countP _ [[a, b], [b, c], [c, a]]
    simp only [List.countP_cons, List.countP_nil, List.getElem?_cons_zero, List.getElem?_cons_succ]
    omega

/-- **C142** (quadrilaterals): the same. -/
theorem C142_closed_Q4 {T : Topo} (h : ∀ r ∈ T, r.length = 4) {F : List Topo} (hF : edgesQ4 T = some F) (hfit : EdgesFit F.flatten) :
    ClosedLines (outer F.flatten) := by
  rw [edgesQ4_rows h, Option.some.injEq] at hF
  subst hF
  refine lines_of_cells (fun e he => ?_) (fun c hc n => ?_) hfit
  · obtain ⟨r, -, p, hp, rfl⟩ := mem_faces.1 he
    rw [List.length_map]
    exact (by decide : ∀ p ∈ edgeIdsQ4, p.length = 2) p hp
  · obtain ⟨r, hr, rfl⟩ := List.mem_map.1 hc
    obtain ⟨a, b, c, d, rfl⟩ := len4 (h r hr)
    show List.countP _ [[a, b], [b, c], [c, d], [d, a]] = List.countP _ [[a, b], [b, c], [c, d], [d, a]]
    simp only [List.countP_cons, List.countP_nil, List.getElem?_cons_zero, List.getElem?_cons_succ]
    omega

/-! ## areas -/

section
variable {K : Type} [Field K]

theorem sweep_turned (C : List (P2 K)) {e : List Nat} (h : e.length = 2) : sweep C e.reverse = - sweep C e := by
  obtain ⟨a, b, rfl⟩ := List.length_eq_two.1 h
  simp [sweep]

theorem areasTri_sum (ts : List (Tri K)) : 2 * areasTri ts = 2 * ((ts.map triArea2).sum / 2) := by
  rw [areasTri, foldl_area, zero_add]

variable [CharZero K]

/-- **C142** (areas of triangles): `areas_tri` is the area that the outer edges enclose. -/
theorem C142_area_T3 (C : List (P2 K)) {T : Topo} (h : ∀ r ∈ T, r.length = 3) {F : List Topo} (hF : edgesTri T = some F)
    (hfit : EdgesFit F.flatten) : 2 * areasTri (T.map (triAt C)) = ((outer F.flatten).map (sweep C)).sum := by
  rw [edgesTri_eq h, Option.some.injEq] at hF
  subst hF
  have hw : ∀ e ∈ (T.map fun r => entities edgeIdsT3 r 0).flatten, e.length = 2 := by
    intro e he
    obtain ⟨r, -, p, hp, rfl⟩ := mem_faces.1 he
    rw [List.length_map]
    exact (by decide : ∀ p ∈ edgeIdsT3, p.length = 2) p hp
  rw [sum_edges hfit _ fun e he => sweep_turned C (hw e he), sum_flatten_map, List.map_map, areasTri_sum,
    mul_div_cancel₀ _ (two_ne_zero' K), List.map_map]
  congr 1
  refine List.map_congr_left fun r hr => ?_
  obtain ⟨a, b, c, rfl⟩ := List.length_eq_three.1 (h r hr)
  show triArea2 (triAt C [a, b, c]) = ([[a, b], [b, c], [c, a]].map (sweep C)).sum
  simp only [List.map_cons, List.map_nil, List.sum_cons, List.sum_nil, sweep, triAt, triArea2, List.getD_cons_zero, List.getD_cons_succ]
  ring

/-- **C142** (areas of quadrilaterals): `areas_tri` of the triangles of `Q4_to_T3` is the area that the outer edges of the quadrilaterals enclose. -/
theorem C142_area_Q4 (C : List (P2 K)) {T : Topo} (h : ∀ r ∈ T, r.length = 4) {F : List Topo} (hF : edgesQ4 T = some F)
    (hfit : EdgesFit F.flatten) : ∃ R, transformTopology T pathQ4T3 3 0 = some R ∧
      2 * areasTri (R.map (triAt C)) = ((outer F.flatten).map (sweep C)).sum := by
  rw [edgesQ4_rows h, Option.some.injEq] at hF
  subst hF
  have hw : ∀ e ∈ (T.map fun r => entities edgeIdsQ4 r 0).flatten, e.length = 2 := by
    intro e he
    obtain ⟨r, -, p, hp, rfl⟩ := mem_faces.1 he
    rw [List.length_map]
    exact (by decide : ∀ p ∈ edgeIdsQ4, p.length = 2) p hp
  refine ⟨_, transformTopology_eq (pathOK_of_width h (by decide)) , ?_⟩
  have e : transformed T pathQ4T3 0 = (T.map fun r => entities pathQ4T3 r 0).flatten := by
    rw [transformed, List.flatMap_def]; rfl
  rw [sum_edges hfit _ fun e he => sweep_turned C (hw e he), sum_flatten_map, List.map_map, areasTri_sum,
    mul_div_cancel₀ _ (two_ne_zero' K), List.map_map, e, sum_flatten_map, List.map_map]
  congr 1
  refine List.map_congr_left fun r hr => ?_
  obtain ⟨a, b, c, d, rfl⟩ := len4 (h r hr)
  show ([[a, b, c], [a, c, d]].map _).sum = ([[a, b], [b, c], [c, d], [d, a]].map (sweep C)).sum
  simp only [List.map_cons, List.map_nil, List.sum_cons, List.sum_nil, sweep, triAt, triArea2, List.getD_cons_zero, List.getD_cons_succ,
    Function.comp_apply]
  ring

end

/-! ## triangles that do not overlap -/

section
variable {K : Type} [Field K] [LinearOrder K] [IsStrictOrderedRing K]

/-- Two triangles on the same side of a common edge overlap. -/
theorem overlap2 {u v x y : P2 K} (hx : 0 < turn u v x) (hy : 0 < turn u v y) : ∃ p, InsideTri ⟨u, v, x⟩ p ∧ InsideTri ⟨u, v, y⟩ p := by
  set D := turn u v y with hD
  have hD0 : D ≠ 0 := ne_of_gt hy
  set γ := turn u v x / D with hγ
  set β := turn u x y / D with hβ
  set α := 1 - β - γ with hα
  have hγ0 : 0 < γ := div_pos hx hy
  set M := 1 + |α| + |β| with hM
  have hα1 := abs_nonneg α
  have hβ1 := abs_nonneg β
  have hM1 : 1 ≤ M := by rw [hM]; linarith
  set t := 1 / (4 * M) with ht
  have ht0 : 0 < t := by rw [ht]; positivity
  have htM : t * M = 1 / 4 := by rw [ht]; field_simp
  have ht1 : t ≤ 1 / 4 := by rw [← htM]; nlinarith
  have key : ∀ z : K, |z| < M → 0 < (1 - t) / 2 + t * z := by
    intro z hz
    have h1 : -|z| ≤ z := neg_abs_le z
    have h2 : t * |z| < t * M := by nlinarith
    nlinarith
  have ex : x.x = α * u.x + β * v.x + γ * y.x := by
    rw [hα, hβ, hγ]; field_simp; rw [hD]; simp only [turn]; ring
  have ey : x.y = α * u.y + β * v.y + γ * y.y := by
    rw [hα, hβ, hγ]; field_simp; rw [hD]; simp only [turn]; ring
  refine ⟨⟨(1 - t) / 2 * u.x + (1 - t) / 2 * v.x + t * x.x, (1 - t) / 2 * u.y + (1 - t) / 2 * v.y + t * x.y⟩,
    ⟨⟨(1 - t) / 2, (1 - t) / 2, t⟩, ⟨by ring, rfl, rfl⟩, by linarith, by linarith, ht0⟩,
    ⟨⟨(1 - t) / 2 + t * α, (1 - t) / 2 + t * β, t * γ⟩, ⟨by rw [hα]; ring, ?_, ?_⟩, key α (by rw [hM]; linarith), key β (by rw [hM]; linarith),
      by positivity⟩⟩
  · show _ * u.x + _ * v.x + _ * y.x = _
    rw [ex]; ring
  · show _ * u.y + _ * v.y + _ * y.y = _
    rw [ey]; ring

omit [IsStrictOrderedRing K] in
/-- A triangle listed from another corner. -/
theorem InsideTri_turned {a b c p : P2 K} (h : InsideTri (⟨a, b, c⟩ : Tri K) p) : InsideTri (⟨b, c, a⟩ : Tri K) p := by
  obtain ⟨⟨n1, n2, n3⟩, ⟨h1, h2, h3⟩, p1, p2, p3⟩ := h
  exact ⟨⟨n2, n3, n1⟩, ⟨by rw [← h1]; ring, by rw [← h2]; ring, by rw [← h3]; ring⟩, p2, p3, p1⟩

omit [IsStrictOrderedRing K] in
/-- An edge of a triangle and the third corner. -/
theorem edge_apex (C : List (P2 K)) {r : List Nat} (h3 : r.length = 3) {e : List Nat} (he : e ∈ entities edgeIdsT3 r 0) :
    ∃ u v x, e = [u, v] ∧ turn (C.getD u ⟨0, 0⟩) (C.getD v ⟨0, 0⟩) (C.getD x ⟨0, 0⟩) = triArea2 (triAt C r) ∧
      ∀ p, InsideTri ⟨C.getD u ⟨0, 0⟩, C.getD v ⟨0, 0⟩, C.getD x ⟨0, 0⟩⟩ p → InsideTri (triAt C r) p := by
  obtain ⟨a, b, c, rfl⟩ := List.length_eq_three.1 h3
  have he' : e ∈ [[a, b], [b, c], [c, a]] := he
  simp only [List.mem_cons, List.not_mem_nil, or_false] at he'
  simp only [triAt, List.getD_cons_zero, List.getD_cons_succ]
  rcases he' with rfl | rfl | rfl
  · exact ⟨a, b, c, rfl, by simp only [turn, triArea2]; ring, fun p h => h⟩
  · exact ⟨b, c, a, rfl, by simp only [turn, triArea2]; ring, fun p h => InsideTri_turned (InsideTri_turned h)⟩
  · exact ⟨c, a, b, rfl, by simp only [turn, triArea2]; ring, fun p h => InsideTri_turned h⟩

theorem edges_opposite {C : List (P2 K)} {r s : List Nat} (hr : r.length = 3 ∧ 0 < triArea2 (triAt C r)) (hs : s.length = 3 ∧ 0 < triArea2 (triAt C s))
    (hno : ∀ p, ¬ (InsideTri (triAt C r) p ∧ InsideTri (triAt C s) p)) {e g : List Nat} (he : e ∈ entities edgeIdsT3 r 0)
    (hg : g ∈ entities edgeIdsT3 s 0) (hp : e.Perm g) : g = e.reverse := by
  obtain ⟨u, v, x, rfl, hx, hin⟩ := edge_apex C hr.1 he
  obtain ⟨u', v', y, rfl, hy, hin'⟩ := edge_apex C hs.1 hg
  have hm := List.mem_permutations'.2 hp.symm
  simp only [List.permutations', List.permutations'Aux, List.flatMap_cons, List.flatMap_nil, List.map_cons, List.map_nil, List.append_nil,
    List.mem_cons, List.not_mem_nil, or_false, List.cons.injEq, and_true] at hm
  rcases hm with ⟨rfl, rfl⟩ | ⟨rfl, rfl⟩
  · obtain ⟨p, h1, h2⟩ := overlap2 (hx ▸ hr.2) (hy ▸ hs.2)
    exact absurd ⟨hin p h1, hin' p h2⟩ (hno p)
  · rfl

/-- Edges fit if common edges are run through in opposite directions. -/
theorem edges_of_pairwise {F : Topo} (h2 : ∀ f ∈ F, f.length = 2 ∧ f.Nodup) (h : F.Pairwise fun f g => f.Perm g → g = f.reverse) : EdgesFit F := by
  intro f hf
  have hocc : occ F f = (F.filter fun t => f.isPerm t).length := List.countP_eq_length_filter
  have hmem : ∀ x ∈ F.filter fun t => f.isPerm t, x ∈ F ∧ f.Perm x := fun x hx =>
    ⟨(List.mem_filter.1 hx).1, List.isPerm_iff.1 (List.mem_filter.1 hx).2⟩
  have hfm : f ∈ F.filter fun t => f.isPerm t := List.mem_filter.2 ⟨hf, List.isPerm_iff.2 (.refl f)⟩
  have hpw : (F.filter fun t => f.isPerm t).Pairwise fun f g => f.Perm g → g = f.reverse := h.sublist List.filter_sublist
  generalize F.filter (fun t => f.isPerm t) = L at *
  match L with
  | [] => cases hfm
  | [x] => exact .inl hocc
  | [x, y] =>
    have hxy : y = x.reverse := (List.pairwise_cons.1 hpw).1 y (by simp) ((hmem x (by simp)).2.symm.trans (hmem y (by simp)).2)
    rcases List.mem_cons.1 hfm with rfl | hfm
    · exact .inr (by rw [hxy])
    · obtain rfl := List.mem_singleton.1 hfm
      exact .inr (by rw [hxy, List.reverse_reverse]; exact List.Perm.swap _ _ _)
  | x :: y :: z :: L =>
    exfalso
    obtain ⟨h1, hpw⟩ := List.pairwise_cons.1 hpw
    obtain ⟨h3, -⟩ := List.pairwise_cons.1 hpw
    have px := (hmem x (by simp)).2
    have py := (hmem y (by simp)).2
    have pz := (hmem z (by simp)).2
    have exy := h1 y (by simp) (px.symm.trans py)
    have exz := h1 z (by simp) (px.symm.trans pz)
    have eyz := h3 z (by simp) (py.symm.trans pz)
    obtain ⟨hl, hn⟩ := h2 y (hmem y (by simp)).1
    obtain ⟨a, b, rfl⟩ := List.length_eq_two.1 hl
    rw [eyz, ← exy] at exz
    simp at exz hn
    exact hn exz.2

/-- **C142** (triangles that do not overlap): the edges of triangles with positive areas, no two of which have an inner point in common, fit. -/
theorem C142_fit_T3 {C : List (P2 K)} {T : Topo} (hpos : ∀ r ∈ T, r.length = 3 ∧ 0 < triArea2 (triAt C r))
    (hno : T.Pairwise fun r s => ∀ p, ¬ (InsideTri (triAt C r) p ∧ InsideTri (triAt C s) p)) {F : List Topo} (hF : edgesTri T = some F) :
    EdgesFit F.flatten := by
  rw [edgesTri_eq fun r hr => (hpos r hr).1, Option.some.injEq] at hF
  subst hF
  have hnd : ∀ r ∈ T, ∃ a b c, r = [a, b, c] ∧ (a ≠ b ∧ b ≠ c ∧ c ≠ a) ∧ entities edgeIdsT3 r 0 = [[a, b], [b, c], [c, a]] := by
    intro r hr
    obtain ⟨a, b, c, rfl⟩ := List.length_eq_three.1 (hpos r hr).1
    have h := ne_of_gt (hpos _ hr).2
    simp only [triAt, triArea2, List.getD_cons_zero, List.getD_cons_succ] at h
    refine ⟨a, b, c, rfl, ⟨?_, ?_, ?_⟩, rfl⟩ <;> rintro rfl <;> exact h (by ring)
  refine edges_of_pairwise (fun f hf => ?_) (List.pairwise_flatten.2 ⟨fun l hl => ?_, List.pairwise_map.2 ?_⟩)
  · obtain ⟨l, hl, hf⟩ := List.mem_flatten.1 hf
    obtain ⟨r, hr, rfl⟩ := List.mem_map.1 hl
    obtain ⟨a, b, c, rfl, ⟨h1, h2, h3⟩, e⟩ := hnd r hr
    rw [e] at hf
    simp only [List.mem_cons, List.not_mem_nil, or_false] at hf
    rcases hf with rfl | rfl | rfl <;> exact ⟨rfl, by simpa⟩
  · obtain ⟨r, hr, rfl⟩ := List.mem_map.1 hl
    obtain ⟨a, b, c, rfl, ⟨h1, h2, h3⟩, e⟩ := hnd r hr
    have no : ∀ {p q s t : Nat} {P : Prop}, s ≠ p ∧ t ≠ p ∨ s ≠ q ∧ t ≠ q → [p, q].Perm [s, t] → P := by
      intro p q s t P hc hp
      have m1 := hp.mem_iff (a := p)
      have m2 := hp.mem_iff (a := q)
      simp only [List.mem_cons, List.not_mem_nil, or_false, true_or, or_true, true_iff] at m1 m2
      exfalso
      rcases hc with ⟨c1, c2⟩ | ⟨c1, c2⟩
      · exact m1.elim (fun h => c1 h.symm) fun h => c2 h.symm
      · exact m2.elim (fun h => c1 h.symm) fun h => c2 h.symm
    rw [e]
    refine List.pairwise_cons.2 ⟨fun g hg => ?_, List.pairwise_cons.2 ⟨fun g hg => ?_, List.pairwise_singleton _ _⟩⟩
    · simp only [List.mem_cons, List.not_mem_nil, or_false] at hg
      rcases hg with rfl | rfl
      · exact no (.inl ⟨h1.symm, h3⟩)
      · exact no (.inr ⟨h2.symm, h1⟩)
    · obtain rfl := List.mem_singleton.1 hg
      exact no (.inl ⟨h2.symm, h1⟩)
  · refine hno.imp_of_mem fun hr hs h f hf g hg hp => ?_
    exact edges_opposite (hpos _ hr) (hpos _ hs) h hf hg hp

/-- **C142**: the outer edges of triangles with positive areas that do not overlap are closed lines, and `areas_tri` is the area that they enclose. -/
theorem C142_T3 {C : List (P2 K)} {T : Topo} (hpos : ∀ r ∈ T, r.length = 3 ∧ 0 < areaTri (triAt C r))
    (hno : T.Pairwise fun r s => ∀ p, ¬ (InsideTri (triAt C r) p ∧ InsideTri (triAt C s) p)) :
    ∃ F, edgesTri T = some F ∧ ClosedLines (outer F.flatten) ∧ 2 * areasTri (T.map (triAt C)) = ((outer F.flatten).map (sweep C)).sum := by
  have h3 : ∀ r ∈ T, r.length = 3 := fun r hr => (hpos r hr).1
  have hF := edgesTri_eq h3
  have hfit := C142_fit_T3 (C := C) (fun r hr => ⟨h3 r hr, by
    have := (hpos r hr).2
    rw [areaTri] at this
    linarith⟩) hno hF
  exact ⟨_, hF, C142_closed_T3 h3 hF hfit, C142_area_T3 C h3 hF hfit⟩

end

/-! ## what fails -/

/-- **C142** is false if one of two triangles is listed in the other direction: the areas cancel, the outer edges are not closed lines. -/
theorem C142_mirrored_false : ∃ (C : List (P2 ℚ)) (T : Topo) (F : List Topo), (∀ r ∈ T, r.length = 3 ∧ r.Nodup) ∧ edgesTri T = some F ∧
    (∀ e ∈ F.flatten, occ F.flatten e ≤ 2) ∧ areasTri (T.map (triAt C)) = 0 ∧ ¬ ClosedLines (outer F.flatten) := by
  refine ⟨[⟨0, 0⟩, ⟨1, 0⟩, ⟨0, 1⟩, ⟨1, 1⟩], [[0, 1, 2], [1, 2, 3]], _, by decide, rfl, by decide +kernel, by decide +kernel, fun h => ?_⟩
  have := h 1
  exact absurd this (by decide +kernel)

/-- A case: the unit square of two triangles. -/
example : ∃ F, edgesTri [[0, 1, 2], [2, 1, 3]] = some F ∧ EdgesFit F.flatten ∧ outer F.flatten = [[0, 1], [2, 0], [1, 3], [3, 2]] ∧
    ((outer F.flatten).map (sweep ([⟨0, 0⟩, ⟨1, 0⟩, ⟨0, 1⟩, ⟨1, 1⟩] : List (P2 ℚ)))).sum = 2 :=
  ⟨_, rfl, edges_of_pairwise (by decide +kernel) (by decide +kernel), by decide +kernel, by decide +kernel⟩

/-- A case: two squares. -/
example : ∃ F, edgesQ4 [[0, 1, 4, 3], [1, 2, 5, 4]] = some F ∧ EdgesFit F.flatten ∧ (outer F.flatten).length = 6 :=
  ⟨_, rfl, edges_of_pairwise (by decide +kernel) (by decide +kernel), by decide +kernel⟩

end PM
