import Verif.PropsConform

/-!
# Property C60: exactly where split cells fit together

For cells without repeated nodes the tables of `tr.py` give cells that fit together at a common face under exactly the
conditions below.
-/

namespace PM

theorem nodeAt_idxOf {topo : Topo} {j : Nat} {cell : List Nat} (hj : topo[j]? = some cell) (hn : cell.Nodup) {q : Nat}
    (hq : q < cell.length) : cell.idxOf ((nodeAt topo j q).getD 0) = q := by
  have : nodeAt topo j q = some cell[q] := by simp [nodeAt, hj, List.getElem?_eq_getElem hq]
  rw [this, Option.getD_some]
  exact hn.idxOf_getElem q hq

/-- If the cells fit together, the finite check succeeds (converse of `conform_of_table`). -/
theorem table_of_conform {topo : Topo} {path facets : List (List Nat)} {nSub : Nat} (hP : PathOK topo path nSub) {r : Topo}
    (hr : transformTopology topo path nSub 0 = some r) {i j : Nat} (hi : i < topo.length)
    {cell : List Nat} (hj : topo[j]? = some cell) (hn : cell.Nodup) {F G σ : List Nat} (hσ : ∀ s ∈ σ, s < σ.length)
    (hG : ∀ q ∈ G, q < cell.length) (hs : ShareFace topo i j F G σ) (hC : Conform path facets r i j F G) :
    TableOK path facets F G σ := by
  refine ⟨hσ, fun k hk f hf hon => ?_⟩
  obtain ⟨k', hk', f', hf', hon', hperm⟩ := hC k hk f hf hon
  refine ⟨k', hk', f', hf', hon', ?_⟩
  have hjl : j < topo.length := (List.getElem?_eq_some_iff.1 hj).1
  have key : ∀ {k f F}, OnFace path k f F → ∀ {c}, c < topo.length → facetNodes r (c * path.length + k) f =
      (subPos path k f).map (nodeAt topo c) := by
    intro k f F hon c hc
    simp only [facetNodes, subPos, List.map_map]
    refine List.map_congr_left fun x hx => ?_
    obtain ⟨q, hq', _⟩ := onFace_some hon hx
    rw [nodeAt_transformed hP hr hc hq', Function.comp, hq']
    rfl
  rw [key hon hi, key hon' hjl] at hperm
  have hacr : ∀ p ∈ subPos path k f, nodeAt topo i p = nodeAt topo j (across F G σ p) ∧ across F G σ p ∈ G := by
    intro p hp
    obtain ⟨x, hx, rfl⟩ := List.mem_map.1 hp
    obtain ⟨p, hq, hpF⟩ := onFace_some hon hx
    rw [hq, Option.getD_some]
    have ht := List.idxOf_lt_length_iff.2 hpF
    have ht' : F.idxOf p < σ.length := hs.1 ▸ ht
    have hsl : σ[F.idxOf p] < G.length := by rw [hs.2.1]; exact hσ _ (List.getElem_mem ht')
    have := hs.2.2 (F.idxOf p) p σ[F.idxOf p] G[σ[F.idxOf p]] (by rw [List.getElem?_eq_getElem ht]; simp)
      (List.getElem?_eq_getElem ht') (List.getElem?_eq_getElem hsl)
    rw [this, across]
    simp [List.getD, List.getElem?_eq_getElem ht', List.getElem?_eq_getElem hsl]
  have h2 := hperm.map fun o : Option Nat => cell.idxOf (o.getD 0)
  have e1 : ((subPos path k f).map (nodeAt topo i)).map (fun o : Option Nat => cell.idxOf (o.getD 0)) =
      (subPos path k f).map (across F G σ) := by
    rw [List.map_map]
    refine List.map_congr_left fun p hp => ?_
    rw [Function.comp, (hacr p hp).1]
    exact nodeAt_idxOf hj hn (hG _ (hacr p hp).2)
  have e2 : ((subPos path k' f').map (nodeAt topo j)).map (fun o : Option Nat => cell.idxOf (o.getD 0)) =
      subPos path k' f' := by
    rw [List.map_map]
    refine (List.map_congr_left fun p hp => ?_).trans (List.map_id _)
    obtain ⟨x, hx, rfl⟩ := List.mem_map.1 hp
    obtain ⟨p, hq, hpG⟩ := onFace_some hon' hx
    rw [hq, Option.getD_some, Function.comp]
    exact nodeAt_idxOf hj hn (hG _ hpG)
  rw [e1, e2] at h2
  exact List.isPerm_iff.2 h2

theorem conform_iff_table {topo : Topo} {path facets : List (List Nat)} {nSub n : Nat}
    (hc : ∀ c ∈ topo, c.length = n ∧ c.Nodup) (hp : ∀ p ∈ path, p.length = nSub ∧ ∀ q ∈ p, q < n) {r : Topo}
    (hr : transformTopology topo path nSub 0 = some r) {i j : Nat} (hi : i < topo.length) (hj : j < topo.length)
    {F G σ : List Nat} (hσ : ∀ s ∈ σ, s < σ.length) (hG : ∀ q ∈ G, q < n) (hs : ShareFace topo i j F G σ) :
    Conform path facets r i j F G ↔ TableOK path facets F G σ := by
  have hP : PathOK topo path nSub := pathOK_of (fun c h => (hc c h).1) hp
  refine ⟨fun h => ?_, fun h => conform_of_table hP hr hi hj h hs⟩
  have hm := hc _ (List.getElem_mem hj)
  exact table_of_conform hP hr hi (List.getElem?_eq_getElem hj) hm.2 hσ (fun q hq => by rw [hm.1]; exact hG q hq) hs h

/-- **C60** Hexahedra split to tetrahedra fit together at a common face exactly if they use the same diagonal of it. -/
theorem C60_H8_TET4_exact {topo : Topo} (hc : ∀ c ∈ topo, c.length = 8 ∧ c.Nodup) {r : Topo}
    (hr : transformTopology topo pathH8TET4 4 0 = some r)
    {i j : Nat} (hi : i < topo.length) (hj : j < topo.length) {F G σ : List Nat} (hF : F ∈ faceIdsH8) (hG : G ∈ faceIdsH8)
    (hσ : σ ∈ symQuad4) (hs : ShareFace topo i j F G σ) :
    Conform pathH8TET4 faceIdsTET4 r i j F G ↔ SameDiagonal F G σ := by
  rw [conform_iff_table hc (by decide) hr hi hj ((by decide : ∀ σ ∈ symQuad4, ∀ s ∈ σ, s < σ.length) σ hσ)
    ((by decide : ∀ G ∈ faceIdsH8, ∀ q ∈ G, q < 8) G hG) hs]
  exact (by decide +kernel : ∀ F ∈ faceIdsH8, ∀ G ∈ faceIdsH8, ∀ σ ∈ symQuad4,
    (TableOK pathH8TET4 faceIdsTET4 F G σ ↔ SameDiagonal F G σ)) F hF G hG σ hσ

/-- **C60** The same for 27-noded hexahedra split to ten-noded tetrahedra. -/
theorem C60_H27_TET10_exact {topo : Topo} (hc : ∀ c ∈ topo, c.length = 27 ∧ c.Nodup) {r : Topo}
    (hr : transformTopology topo pathH27TET10 10 0 = some r)
    {i j : Nat} (hi : i < topo.length) (hj : j < topo.length) {F G σ : List Nat} (hF : F ∈ bdH27) (hG : G ∈ bdH27)
    (hσ : σ ∈ symQuad9) (hs : ShareFace topo i j F G σ) :
    Conform pathH27TET10 bdTET10 r i j F G ↔ SameDiagonal F G σ := by
  rw [conform_iff_table hc (by decide) hr hi hj ((by decide : ∀ σ ∈ symQuad9, ∀ s ∈ σ, s < σ.length) σ hσ)
    ((by decide : ∀ G ∈ bdH27, ∀ q ∈ G, q < 27) G hG) hs]
  exact (by decide +kernel : ∀ F ∈ bdH27, ∀ G ∈ bdH27, ∀ σ ∈ symQuad9,
    (TableOK pathH27TET10 bdTET10 F G σ ↔ SameDiagonal F G σ)) F hF G hG σ hσ

/-- The triangles of the tetrahedra of `W6_to_TET4` on the quadrilaterals of a wedge, as places in the quadrilateral: one
half of the first, two triangles along the diagonal of the second, two overlapping triangles on the third. -/
def trisW6 : List (List Nat × List (List Nat)) :=
  [([4, 3, 0, 1], [[0, 2, 3]]), ([5, 4, 1, 2], [[1, 2, 3], [0, 1, 3]]), ([3, 5, 2, 0], [[0, 1, 2], [1, 2, 3]])]

/-- Every triangle on the first quadrilateral is one on the second. -/
def TrisMatch (ts us : List (List Nat)) (σ : List Nat) : Prop :=
  ∀ t ∈ ts, ∃ u ∈ us, ∀ s, s < 4 → (s ∈ u ↔ ∃ p ∈ t, σ.getD p 0 = s)

instance (ts us : List (List Nat)) (σ : List Nat) : Decidable (TrisMatch ts us σ) := by unfold TrisMatch; infer_instance

/-- **C60** Wedges split to tetrahedra fit together at a common quadrilateral exactly if the triangles listed above do. -/
theorem C60_W6_TET4_exact {topo : Topo} (hc : ∀ c ∈ topo, c.length = 6 ∧ c.Nodup) {r : Topo}
    (hr : transformTopology topo pathW6TET4 4 0 = some r)
    {i j : Nat} (hi : i < topo.length) (hj : j < topo.length) {F G σ : List Nat} {ts us : List (List Nat)}
    (hF : (F, ts) ∈ trisW6) (hG : (G, us) ∈ trisW6) (hσ : σ ∈ symQuad4) (hs : ShareFace topo i j F G σ) :
    Conform pathW6TET4 faceIdsTET4 r i j F G ↔ TrisMatch ts us σ := by
  rw [conform_iff_table hc (by decide) hr hi hj ((by decide : ∀ σ ∈ symQuad4, ∀ s ∈ σ, s < σ.length) σ hσ)
    ((by decide : ∀ G ∈ trisW6, ∀ q ∈ G.1, q < 6) (G, us) hG) hs]
  exact (by decide +kernel : ∀ A ∈ trisW6, ∀ B ∈ trisW6, ∀ σ ∈ symQuad4,
    (TableOK pathW6TET4 faceIdsTET4 A.1 B.1 σ ↔ TrisMatch A.2 B.2 σ)) (F, ts) hF (G, us) hG σ hσ

/-- **C60** Wedges that fit together in both directions: no first quadrilateral meets another kind, no third meets a
second; a first or a third meets its own kind in two positions of eight (one the identity), a second in four. -/
theorem C60_W6_TET4_both : ∀ A ∈ trisW6, ∀ B ∈ trisW6,
    (symQuad4.filter fun σ => decide (TrisMatch A.2 B.2 σ) && symQuad4.any fun τ =>
      decide (∀ t : Nat, t < 4 → τ.getD (σ.getD t 0) 0 = t) && decide (TrisMatch B.2 A.2 τ)).length = if A = B then (if A.1 = [5, 4, 1, 2] then 4 else 2) else 0 := by
  decide +kernel

/-- The kinds are all quadrilaterals of a wedge. -/
example : trisW6.map Prod.fst = faceIdsW6 := by decide

/-- Two hexahedra of a grid do not fit, a turned one does. -/
example : ¬ SameDiagonal [1, 2, 6, 5] [0, 4, 7, 3] [0, 3, 2, 1] ∧ SameDiagonal [1, 2, 6, 5] [0, 1, 5, 4] [1, 0, 3, 2] := by
  decide

/-- Two wedges meeting at their second quadrilaterals do not fit if they are side by side, but do if one is turned. -/
example : (∀ c ∈ [[0, 1, 2, 3, 4, 5], [6, 2, 1, 7, 5, 4], [8, 5, 2, 9, 4, 1]], c.length = 6 ∧ c.Nodup) ∧
    ShareFace [[0, 1, 2, 3, 4, 5], [6, 2, 1, 7, 5, 4], [8, 5, 2, 9, 4, 1]] 0 1 [5, 4, 1, 2] [5, 4, 1, 2] [1, 0, 3, 2] ∧
    ShareFace [[0, 1, 2, 3, 4, 5], [6, 2, 1, 7, 5, 4], [8, 5, 2, 9, 4, 1]] 0 2 [5, 4, 1, 2] [5, 4, 1, 2] [2, 1, 0, 3] ∧
    ¬ TrisMatch [[1, 2, 3], [0, 1, 3]] [[1, 2, 3], [0, 1, 3]] [1, 0, 3, 2] ∧
    TrisMatch [[1, 2, 3], [0, 1, 3]] [[1, 2, 3], [0, 1, 3]] [2, 1, 0, 3] :=
  ⟨by decide, shareFace_of (by decide) (by decide) (by decide), shareFace_of (by decide) (by decide) (by decide),
    by decide, by decide⟩

end PM
