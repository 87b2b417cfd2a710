import Verif.Small
import Verif.PropsExplode
import Verif.PropsFactors
import Verif.PropsPolygon
import Verif.PropsQuad
import Mathlib.Analysis.Real.Sqrt

/-!
# C120: small functions
-/

namespace PM

/-! ## quadrilaterals -/

section
variable {K : Type} [Field K]

/-- The shape functions of quadrilaterals as a map of the square with corners `(±1, ±1)`: the determinant of its derivative, written out. -/
def bilinDet (a b c d : P2 K) (r s : K) : K :=
  let xr := (-(1 - s) * a.x + (1 - s) * b.x + (1 + s) * c.x - (1 + s) * d.x) / 4
  let xs := (-(1 - r) * a.x - (1 + r) * b.x + (1 + r) * c.x + (1 - r) * d.x) / 4
  let yr := (-(1 - s) * a.y + (1 - s) * b.y + (1 + s) * c.y - (1 + s) * d.y) / 4
  let ys := (-(1 - r) * a.y - (1 + r) * b.y + (1 + r) * c.y + (1 - r) * d.y) / 4
  xr * ys - xs * yr

/-- **C120** `area_Q4_bulk`: half of the area swept along the sides of every quadrilateral, from any point. -/
theorem C120_areas [CharZero K] {ec : List (List (P2 K))} (h : ∀ q ∈ ec, q.length = 4) :
    ∃ A, areaQ4Bulk ec = some A ∧ A.length = ec.length ∧ ∀ (i : Nat) (q : List (P2 K)), ec[i]? = some q →
      ∃ a, A[i]? = some a ∧ ∀ o : P2 K, 2 * a = swept o q := by
  have key : ∀ q ∈ ec, ∃ a b c d, q = [a, b, c, d] := fun q hq => by
    match q, h q hq with
    | [a, b, c, d], _ => exact ⟨a, b, c, d, rfl⟩
  have h1 : ec.mapM (fun q => triRows q [0, 1, 2]) = some (ec.map fun q => ⟨q.getD 0 ⟨0, 0⟩, q.getD 1 ⟨0, 0⟩, q.getD 2 ⟨0, 0⟩⟩) :=
    mapM_some fun q hq => by obtain ⟨a, b, c, d, rfl⟩ := key q hq; rfl
  have h2 : ec.mapM (fun q => triRows q [0, 2, 3]) = some (ec.map fun q => ⟨q.getD 0 ⟨0, 0⟩, q.getD 2 ⟨0, 0⟩, q.getD 3 ⟨0, 0⟩⟩) :=
    mapM_some fun q hq => by obtain ⟨a, b, c, d, rfl⟩ := key q hq; rfl
  have e : ∃ A, areaQ4Bulk ec = some A ∧ A = List.zipWith (· + ·) (List.zipWith (· + ·) (List.replicate ec.length 0)
      (areaTriBulk (ec.map fun q => ⟨q.getD 0 ⟨0, 0⟩, q.getD 1 ⟨0, 0⟩, q.getD 2 ⟨0, 0⟩⟩)))
      (areaTriBulk (ec.map fun q => ⟨q.getD 0 ⟨0, 0⟩, q.getD 2 ⟨0, 0⟩, q.getD 3 ⟨0, 0⟩⟩)) := ⟨_, by rw [areaQ4Bulk, h1, h2]; rfl, rfl⟩
  obtain ⟨A, hA, hA'⟩ := e
  refine ⟨A, hA, by simp [hA', areaTriBulk], fun i q hi => ?_⟩
  obtain ⟨a, b, c, d, rfl⟩ := key q (List.mem_of_getElem? hi)
  have hlt : i < ec.length := (List.getElem?_eq_some_iff.1 hi).1
  refine ⟨0 + areaTri ⟨a, b, c⟩ + areaTri ⟨a, c, d⟩, ?_, fun o => ?_⟩
  · have hg : ec[i] = [a, b, c, d] := (List.getElem?_eq_some_iff.1 hi).2
    simp [hA', areaTriBulk, areaTri, hlt, hg]
  · have h2 : (2 : K) ≠ 0 := by norm_num
    simp only [areaTri, triArea2, swept, sides, turn]
    simp
    field_simp
    ring

/-- **C120** this is the integral of the determinant of the bilinear map (which is linear along both axes) over the square: four times
the value in the middle, and the sum of the values at the two by two Gauss points, wherever their distance. -/
theorem C120_bilinear [CharZero K] (a b c d : P2 K) (g : K) :
    ∃ A, areaQ4Bulk [[a, b, c, d]] = some [A] ∧ A = 4 * bilinDet a b c d 0 0 ∧
      A = bilinDet a b c d g g + bilinDet a b c d (-g) g + bilinDet a b c d g (-g) + bilinDet a b c d (-g) (-g) := by
  refine ⟨0 + areaTri ⟨a, b, c⟩ + areaTri ⟨a, c, d⟩, rfl, ?_, ?_⟩
  · simp only [areaTri, triArea2, bilinDet]; field_simp; ring
  · simp only [areaTri, triArea2, bilinDet]; field_simp; ring

/-- **C120** `bilinDet` is what the shape functions of the class `Q4` give. -/
theorem C120_det [CharZero K] (X : List (V3 K)) (r s : K) : ∀ a b c d : V3 K, X = [a, b, c, d] →
    jacDet2 X (dshpVals Shp.dshpQ4 ⟨r, s, 0⟩) = bilinDet ⟨a.x, a.y⟩ ⟨b.x, b.y⟩ ⟨c.x, c.y⟩ ⟨d.x, d.y⟩ r s := by
  rintro a b c d rfl
  have hdiv : ∀ (x : V3 K) (e : PE), (e / (4 : Nat)).eval x = e.eval x / 4 := by
    intro x e
    change ((1 / ((4 : Nat) : ℚ) : ℚ) : K) * e.eval x = _
    push_cast
    ring
  have h1 : ∀ x : V3 K, (1 : PE).eval x = 1 := fun x => by
    change (((1 : Nat) : ℚ) : K) = 1
    simp
  have hr : ∀ x : V3 K, PE.r.eval x = x.x := fun _ => rfl
  have hs : ∀ x : V3 K, PE.s.eval x = x.y := fun _ => rfl
  simp only [jacDet2, jacCol, dshpVals, Shp.dshpQ4, List.map_cons, List.map_nil, hdiv, PE.eval_sub, PE.eval_add, PE.eval_neg, h1, hr, hs, bilinDet,
    List.zip_cons_cons, List.zip_nil_right, List.foldr_cons, List.foldr_nil, V3.add_x, V3.add_y, V3.smul_x, V3.smul_y, List.getD_cons_zero,
    List.getD_cons_succ, V3.zero_x, V3.zero_y]
  ring

/-- **C120** positive for convex quadrilaterals with corners in positive order. -/
theorem C120_positive {L : Type} [Field L] [LinearOrder L] [IsStrictOrderedRing L] {a b c d : P2 L} (h1 : 0 < turn a b c) (h2 : 0 < turn a c d) :
    ∃ A, areaQ4Bulk [[a, b, c, d]] = some [A] ∧ 0 < A := by
  refine ⟨0 + areaTri ⟨a, b, c⟩ + areaTri ⟨a, c, d⟩, rfl, ?_⟩
  simp only [turn] at h1 h2
  simp only [areaTri, triArea2]
  linarith

example : areaQ4Bulk ([[⟨0, 0⟩, ⟨2, 0⟩, ⟨3, 2⟩, ⟨0, 1⟩], [⟨0, 0⟩, ⟨0, 1⟩, ⟨1, 1⟩, ⟨1, 0⟩]] : List (List (P2 ℚ))) = some [7 / 2, -1] := by decide +kernel

end

/-! ## coordinates of one cell -/

/-- **C120** `cell_coords` with a row of the topology is the row of `cells_coords`, in whatever order the assignments are done. -/
theorem C120_cell {α : Type} {coords : List α} {topo : Topo} {nNE : Nat} (hr : ∀ r ∈ topo, r.length = nNE)
    (hin : ∀ r ∈ topo, ∀ n ∈ r, n < coords.length) (zero : α) {wc : List ((Nat × Nat) × Option α)}
    (hc : (cellsCoordsW coords topo nNE).Perm wc) :
    ∃ C, cellsCoordsWith zero topo.length nNE wc = some C ∧ C.length = topo.length ∧
      ∀ (i : Nat) (row : List Nat), topo[i]? = some row → ∀ w, (cellCoordsW coords row).Perm w →
        ∃ X, cellCoordsWith zero row w = some X ∧ C[i]? = some X ∧ X.length = row.length ∧
          ∀ (j n : Nat), row[j]? = some n → X[j]? = coords[n]? := by
  refine ⟨_, cellsCoords_closed hr hin zero hc, by simp, fun i row hi w hw => ?_⟩
  have hrow := hin row (List.mem_of_getElem? hi)
  have hX : ∀ (j n : Nat), row[j]? = some n → (row.map fun n => coords.getD n zero)[j]? = coords[n]? := by
    intro j n hj
    have := hrow n (List.mem_of_getElem? hj)
    simp [hj, List.getElem?_eq_getElem this]
  refine ⟨row.map fun n => coords.getD n zero, ?_, by simp [hi], by simp, hX⟩
  refine arrayOf_eq (by simp) (fun x hx => ?_) (fun k hk => ?_)
  · rw [← hw.mem_iff] at hx
    obtain ⟨j, hj, rfl⟩ := List.mem_map.1 hx
    rw [List.mem_range] at hj
    have hj' := List.getElem?_eq_getElem hj
    simp only [hj', Option.bind_some]
    exact (hX j _ hj').symm
  · exact ⟨_, hw.mem_iff.1 (List.mem_map.2 ⟨k, List.mem_range.2 hk, rfl⟩), rfl⟩

example : cellCoordsWith "" [2, 0] ((cellCoordsW ["a", "b", "c"] [2, 0]).reverse) = some ["c", "a"] := by decide +kernel

/-! ## norms -/

/-- **C120** `norms`: the Euclidean norm of every row, in whatever order the rows are done. -/
theorem C120_norms (a : List (List ℝ)) {w : List (Nat × ℝ)} (hw : (normsW a).Perm w) :
    (normsWith a w).length = a.length ∧ ∀ (i : Nat) (r : List ℝ), a[i]? = some r →
      ∃ n, (normsWith a w)[i]? = some n ∧ 0 ≤ n ∧ n ^ 2 = (r.map fun x => x ^ 2).sum ∧ (n = 0 ↔ ∀ x ∈ r, x = 0) := by
  have hc : Consistent w := by
    intro x hx y hy hxy
    rw [← hw.mem_iff] at hx hy
    obtain ⟨i, -, rfl⟩ := List.mem_map.1 hx
    obtain ⟨j, -, rfl⟩ := List.mem_map.1 hy
    simp only at hxy
    rw [hxy]
  refine ⟨by simp [normsWith, toArr], fun i r hi => ?_⟩
  have hlt : i < a.length := (List.getElem?_eq_some_iff.1 hi).1
  have hm : (i, dotSelf r) ∈ w := hw.mem_iff.1 (List.mem_map.2 ⟨i, List.mem_range.2 hlt, by
    rw [List.getD_eq_getElem?_getD, hi, Option.getD_some]⟩)
  have hnn : ∀ y ∈ r.map (fun x => x * x), 0 ≤ y := by
    intro y hy
    obtain ⟨x, -, rfl⟩ := List.mem_map.1 hy
    exact mul_self_nonneg x
  have h0 : 0 ≤ dotSelf r := List.sum_nonneg hnn
  refine ⟨Real.sqrt (dotSelf r), ?_, Real.sqrt_nonneg _, ?_, ?_⟩
  · have := runW_of_mem hc (m := fun _ => 0) hm
    simp only at this
    rw [normsWith, List.getElem?_map, toArr_getElem? _ hlt, this]
    rfl
  · rw [Real.sq_sqrt h0, dotSelf]
    simp only [sq]
  · rw [Real.sqrt_eq_zero h0]
    constructor
    · intro h x hx
      have h1 : x * x ≤ dotSelf r := List.single_le_sum hnn _ (List.mem_map.2 ⟨x, hx, rfl⟩)
      rw [h] at h1
      exact mul_self_eq_zero.1 (le_antisymm h1 (mul_self_nonneg x))
    · intro h
      refine List.sum_eq_zero fun y hy => ?_
      obtain ⟨x, hx, rfl⟩ := List.mem_map.1 hy
      rw [h x hx, mul_zero]

example : normsWith [[3, 4], [0, 0]] (normsW [[3, 4], [0, 0]]).reverse = [5, 0] := by
  have h : (3 * 3 + 4 * 4 : ℝ) = 5 ^ 2 := by norm_num
  simp [normsWith, normsW, dotSelf, toArr, runW, List.range_succ, Function.update, h]

/-! ## moving points -/

section
variable {K : Type} [Field K] [LinearOrder K] [FloorRing K]

/-- **C120** `move_points` adds the vector to every point: for arrays of floats, or if the sums are integers. -/
theorem C120_move_partial {int : Bool} {coords : List (List K)} {p : List K} (hl : ∀ r ∈ coords, r.length = p.length)
    (hint : int = true → ∀ r ∈ coords, ∀ (k : Nat) (x y : K), r[k]? = some x → p[k]? = some y → storeAs true (x + y) = x + y)
    {w : List (Nat × Option (List K))} (hw : (movePointsW int coords p).Perm w) :
    ∃ R, movePointsWith coords w = some R ∧ R.length = coords.length ∧ ∀ (i : Nat) (r : List K), coords[i]? = some r →
      ∃ s, R[i]? = some s ∧ s.length = r.length ∧ ∀ (k : Nat) (x y : K), r[k]? = some x → p[k]? = some y → s[k]? = some (x + y) := by
  have hst : ∀ r ∈ coords, (List.zipWith (· + ·) r p).map (storeAs int) = List.zipWith (· + ·) r p := by
    intro r hr
    cases int with
    | false =>
      have : storeAs (K := K) false = id := by funext x; simp [storeAs]
      rw [this, List.map_id]
    | true =>
      apply List.ext_getElem?
      intro k
      rw [List.getElem?_map, List.getElem?_zipWith]
      cases hx : r[k]? with
      | none => rfl
      | some x => cases hy : p[k]? with
        | none => rfl
        | some y => exact congrArg some (hint rfl r hr k x y hx hy)
  refine ⟨coords.map fun r => List.zipWith (· + ·) r p, ?_, by simp, fun i r hi => ?_⟩
  · refine arrayOf_eq (by simp) (fun x hx => ?_) (fun k hk => ?_)
    · rw [← hw.mem_iff] at hx
      obtain ⟨i, hi, rfl⟩ := List.mem_map.1 hx
      rw [List.mem_range] at hi
      have hm := List.getElem_mem hi
      simp only [List.getElem?_eq_getElem hi, Option.bind_some, hl _ hm, if_true, hst _ hm, List.getElem?_map, Option.map_some]
    · exact ⟨_, hw.mem_iff.1 (List.mem_map.2 ⟨k, List.mem_range.2 hk, rfl⟩), rfl⟩
  · refine ⟨List.zipWith (· + ·) r p, by simp [hi], by simp [hl r (List.mem_of_getElem? hi)], fun k x y hx hy => ?_⟩
    simp [List.getElem?_zipWith, hx, hy]

/-- **C120** `center_tri_3d` is the mean of the rows, of arrays of floats with any number of rows but none: of triangles, the mean of the three corners. -/
theorem C120_center_partial [CharZero K] (e : List (V3 K)) :
    (∀ m, centerTri3d false e = some m ↔ e ≠ [] ∧
      (e.length : K) * m.x = (e.map V3.x).sum ∧ (e.length : K) * m.y = (e.map V3.y).sum ∧ (e.length : K) * m.z = (e.map V3.z).sum) ∧
    (∀ a b c : V3 K, e = [a, b, c] → ∃ m, centerTri3d false e = some m ∧
      3 * m.x = a.x + b.x + c.x ∧ 3 * m.y = a.y + b.y + c.y ∧ 3 * m.z = a.z + b.z + c.z) := by
  refine ⟨fun m => ?_, ?_⟩
  · by_cases he : e = []
    · simp [centerTri3d, he]
    · have hn : (e.length : K) ≠ 0 := Nat.cast_ne_zero.2 (by simpa using he)
      obtain ⟨x, y, z⟩ := m
      have hq : ∀ u v : K, v / (e.length : K) = u ↔ (e.length : K) * u = v := fun u v => by
        rw [div_eq_iff hn, mul_comm, eq_comm]
      simp only [centerTri3d, storeAs, Bool.false_eq_true, if_false, Option.some.injEq, V3.mk.injEq, hq, ne_eq, he, not_false_eq_true, true_and]
  · rintro a b c rfl
    have h3 : (3 : K) ≠ 0 := by norm_num
    refine ⟨⟨_, _, _⟩, by simp [centerTri3d, storeAs]; exact ⟨rfl, rfl, rfl⟩, ?_, ?_, ?_⟩ <;> field_simp <;> ring

end

/-- **C120** is false for arrays of integers: sums and means are cut off. -/
theorem C120_int_false : movePointsWith ([[0, 0], [1, 2]] : List (List ℚ)) (movePointsW true [[0, 0], [1, 2]] [1 / 2, -1 / 2]) = some [[0, 0], [1, 1]] ∧
    centerTri3d true ([⟨0, 0, 0⟩, ⟨1, 0, 0⟩, ⟨0, 1, 0⟩] : List (V3 ℚ)) = some ⟨0, 0, 0⟩ := by decide +kernel

example : movePointsWith ([[0, 0], [1, 2]] : List (List ℚ)) (movePointsW false [[0, 0], [1, 2]] [1 / 2, -1 / 2]).reverse =
    some [[1 / 2, -1 / 2], [3 / 2, 3 / 2]] := by decide +kernel

/-! ## monomials -/

section
variable {K : Type} [Field K]

/-- **C120** `monoms_tri_loc_bulk` has the rows of `monoms_tri_loc`: one, and the coordinates. -/
theorem C120_monoms {l : List (List K)} (h : ∀ r ∈ l, r.length = 2) :
    ∃ M, monomsTriLocBulk l = some M ∧ M.length = l.length ∧ ∀ (i : Nat) (x y : K), l[i]? = some [x, y] →
      M[i]? = some [1, x, y] ∧ monomsTriLoc [x, y] = M[i]? := by
  have h0 : l.mapM (fun r => r[0]?) = some (l.map fun r => r.getD 0 0) := mapM_some fun r hr => by
    match r, h r hr with
    | [x, y], _ => rfl
  have h1 : l.mapM (fun r => r[1]?) = some (l.map fun r => r.getD 1 0) := mapM_some fun r hr => by
    match r, h r hr with
    | [x, y], _ => rfl
  refine ⟨setCol (setCol (List.replicate l.length [1, 1, 1]) 1 (l.map fun r => r.getD 0 0)) 2 (l.map fun r => r.getD 1 0),
    by rw [monomsTriLocBulk, h0, h1]; rfl, by simp [setCol], fun i x y hi => ?_⟩
  have hlt : i < l.length := (List.getElem?_eq_some_iff.1 hi).1
  have : (setCol (setCol (List.replicate l.length [1, 1, 1]) 1 (l.map fun r => r.getD 0 0)) 2 (l.map fun r => r.getD 1 0))[i]? =
      some [1, x, y] := by
    have hg : l[i] = [x, y] := (List.getElem?_eq_some_iff.1 hi).2
    simp [setCol, hlt, hg]
  exact ⟨this, this.symm⟩

example : monomsTriLocBulk ([[2, 3], [5, 7]] : List (List ℚ)) = some [[1, 2, 3], [1, 5, 7]] := by decide +kernel

end

/-! ## dictionaries -/

theorem dolKeys_fold {β : Type} (d : List (Int × β)) (done rest : List Int) (h : rest.length = d.length) :
    d.foldl (fun (s : List Int × Nat) q => (s.1.set s.2 q.1, s.2 + 1)) (done ++ rest, done.length) =
      (done ++ d.map Prod.fst, done.length + d.length) := by
  induction d generalizing done rest with
  | nil => cases rest with
    | nil => simp
    | cons _ _ => simp at h
  | cons q d ih => cases rest with
    | nil => simp at h
    | cons x rest =>
      rw [List.foldl_cons]
      have := ih (done ++ [q.1]) rest (by simpa using h)
      simp only [List.append_assoc, List.singleton_append, List.length_append, List.length_singleton] at this
      simp only [List.set_append_right _ _ (Nat.le_refl _), Nat.sub_self, List.set_cons_zero, this, List.map_cons, List.length_cons]
      rw [Nat.add_assoc, Nat.add_comm 1]

/-- **C120** `dol_keys` gives the keys, in the order of the dictionary; each once, as dictionaries have it. -/
theorem C120_keys {β : Type} (d : List (Int × β)) : dolKeys d = d.map Prod.fst ∧ ((d.map Prod.fst).Nodup → (dolKeys d).Nodup) := by
  have h := dolKeys_fold d [] (List.replicate d.length 0) (by simp)
  simp only [List.nil_append, List.length_nil] at h
  have e : dolKeys d = d.map Prod.fst := by rw [dolKeys, h]
  exact ⟨e, fun hn => by rwa [e]⟩

example : dolKeys [(7, "a"), (-2, "b")] = [7, -2] := by decide +kernel

/-! ## functions that choose between others -/

/-- **C120** `explode_mesh`: without data the exploded mesh, with an array also the data of its points; other data are refused. -/
theorem C120_explode {α β : Type} {coords : List α} {topo : Topo} {nNE : Nat} (hr : ∀ r ∈ topo, r.length = nNE)
    (hin : ∀ r ∈ topo, ∀ n ∈ r, n < coords.length) (zero : α) (zero' : β) :
    (∃ C T, explodeMesh zero zero' coords topo nNE .none = some (C, T, none) ∧ IsExploded coords topo nNE C T) ∧
    (∀ data : List (List β), data.length = topo.length → (∀ r ∈ data, r.length = nNE) →
      ∃ C T D, explodeMesh zero zero' coords topo nNE (.arr data) = some (C, T, some D) ∧ IsExploded coords topo nNE C T ∧
        D.length = C.length ∧ ∀ i j m, nodeAt T i j = some m → D[m]? = nodeAt data i j) ∧
    explodeMesh zero zero' coords topo nNE .other = none := by
  refine ⟨?_, fun data hd hdr => ?_, rfl⟩
  · obtain ⟨C, T, h1, h2⟩ := C23_explode hr hin zero (List.Perm.refl _) (List.Perm.refl _)
    exact ⟨C, T, by simp [explodeMesh, explode, h1], h2⟩
  · obtain ⟨C, T, D, h1, h2⟩ := C23_explode_data hr hin hd hdr zero zero' (List.Perm.refl _) (List.Perm.refl _) (List.Perm.refl _)
    exact ⟨C, T, D, by simp [explodeMesh, explodeData, h1], h2⟩

/-- **C120** `nodal_distribution_factors`: arrays and csr matrices give the same factors, of the same shape; others are refused. -/
theorem C120_factors {K : Type} [Field K] [LinearOrder K] [IsStrictOrderedRing K] {topo : Topo} {w : List K} (hl : w.length = topo.length)
    (hne : topo.flatten ≠ []) (hnd : ∀ r ∈ topo, r.Nodup) (hw : ∀ x ∈ w, 0 < x) (indices : List Nat) (shape : Nat × Nat) :
    (∃ F, nodalFactors w (.dense topo) = some (.dense F) ∧ IsPartition topo w F) ∧
    (∃ F, nodalFactors w (.csr topo.flatten indices (rowPtr topo) shape) = some (.csr F.flatten indices (rowPtr topo) shape) ∧
      IsPartition topo w F) ∧
    nodalFactors w .other = none := by
  refine ⟨?_, ?_, rfl⟩
  · obtain ⟨F, h1, h2⟩ := C24_partition hl hne hnd hw
    exact ⟨F, by simp [nodalFactors, h1], h2⟩
  · obtain ⟨F, h1, h2⟩ := C24_csr hl hne hnd hw (List.Perm.refl _)
    exact ⟨F, by simp [nodalFactors, h1], h2⟩

example : nodalFactors ([1, 3] : List ℚ) (.csr [0, 1, 1] [0, 1, 0] [0, 2, 3] (2, 2)) = some (.csr [1, 1 / 4, 3 / 4] [0, 1, 0] [0, 2, 3] (2, 2)) ∧
    nodalFactors ([1, 3] : List ℚ) (.dense [[0, 1], [1, 2]]) = some (.dense [[1, 1 / 4], [3 / 4, 1]]) := by decide +kernel

/-! ## types of cells -/

/-- **C120** names and numbers of the types of cells: one for one, found by either of the two; `CellTypeId` is the number; all classes of
cells with a type have one of these. -/
theorem C120_types : (vtkEnum.map Prod.fst).Nodup ∧ (vtkEnum.map Prod.snd).Nodup ∧
    (∀ q ∈ vtkEnum, celltypeOf (.int q.2) = some q ∧ celltypeOf (.str q.1) = some q ∧ cellTypeId q.1 = some q.2) ∧
    (∀ v, (∀ q ∈ vtkEnum, q.2 ≠ v) → celltypeOf (.int v) = none) ∧
    (∀ s, (∀ q ∈ vtkEnum, q.1 ≠ s) → celltypeOf (.str s) = none ∧ cellTypeId s = none) ∧
    (∀ c ∈ cellClasses, ∀ k, c.vtk = some k → ∃ s, celltypeOf (.int k) = some (s, (k : Int))) ∧
    (∀ q ∈ vtkEnum, ∃ c ∈ cellClasses, c.vtk.map (fun k => (k : Int)) = some q.2) := by
  have hf : ∀ s, (∀ q ∈ vtkEnum, q.1 ≠ s) → celltypeByName s = none := fun s h =>
    List.find?_eq_none.2 fun q hq => by simpa using h q hq
  refine ⟨by decide +kernel, by decide +kernel, by decide +kernel, fun v h => List.find?_eq_none.2 fun q hq => by simpa using h q hq,
    fun s h => ⟨hf s h, by rw [cellTypeId, hf s h]; rfl⟩, ?_, by decide +kernel⟩
  have check : cellClasses.all (fun c => c.vtk.all fun k : Nat => (celltypeOf (.int (k : Int))).any fun q => q.2 == (k : Int)) = true := by decide +kernel
  intro c hc k hk
  have h := List.all_eq_true.1 check c hc
  rw [hk, Option.all_some] at h
  obtain ⟨q, h1, h2⟩ := (Option.any_eq_true _ _).1 h
  exact ⟨q.1, by rw [h1, ← beq_iff_eq.1 h2]⟩

/-- **C120** `meshio_to_vtk` knows triangles, and gives the default for all other names; it is false that it knows the names that meshio gives to the other types. -/
theorem C120_meshio_false : (∀ d, meshioToVtk "triangle" d = some "VTK_TRIANGLE") ∧ (∀ s d, s ≠ "triangle" → meshioToVtk s d = d) ∧
    (∀ k : Nat, (∃ c ∈ cellClasses, c.vtk = some k) → k ≠ 5 → meshioToVtk (meshioName k) none = none) := by
  refine ⟨fun _ => rfl, fun s d h => if_neg h, ?_⟩
  rintro k ⟨c, hc, hk⟩ h5
  have check : cellClasses.all (fun c => c.vtk.all fun k => k == 5 || meshioToVtk (meshioName k) none == none) = true := by decide +kernel
  have h := List.all_eq_true.1 check c hc
  rw [hk, Option.all_some, Bool.or_eq_true, beq_iff_eq, beq_iff_eq] at h
  exact h.resolve_left h5

end PM
