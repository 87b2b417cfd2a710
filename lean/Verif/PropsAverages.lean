import Verif.CellData
import Mathlib.Algebra.CharZero.Defs
import Mathlib.Tactic.FieldSimp
import Mathlib.Tactic.Ring
import Mathlib.Algebra.Order.Field.Rat

/-!
# C26: averages, centres, centring
-/

namespace PM

variable {K : Type} [Field K]

/-- All rows have `nD` entries (a two-dimensional array). -/
def Rect (nD : Nat) (rows : List (List K)) : Prop := ∀ r ∈ rows, r.length = nD

/-- `m` is the mean of the rows: entry `k` times the number of rows is the sum of the entries `k` of the rows. -/
structure IsMean (rows : List (List K)) (nD : Nat) (m : List K) : Prop where
  length : m.length = nD
  mean : ∀ k x, m[k]? = some x → (rows.length : K) * x = (rows.map fun r => r.getD k 0).sum

/-- `C` is `coords` moved by one vector, and the mean of `C` is the origin. -/
structure IsCentred (coords : List (List K)) (nD : Nat) (C : List (List K)) : Prop where
  rect : Rect nD C
  translation : ∃ t : List K, t.length = nD ∧ C = coords.map fun r => List.zipWith (· - ·) r t
  mean : IsMean C nD (List.replicate nD 0)
  /-- The difference of any two points is unchanged. -/
  differences : ∀ (i j : Nat) (p q p' q' : List K), coords[i]? = some p → coords[j]? = some q → C[i]? = some p' →
    C[j]? = some q' → List.zipWith (· - ·) p' q' = List.zipWith (· - ·) p q

/-! ## lemmas -/

theorem foldl_rows (nD : Nat) (rs : List (List K)) (acc : List K) (hacc : acc.length = nD) :
    (rs.foldl (fun acc r => (List.range nD).map fun k => acc.getD k 0 + r.getD k 0) acc) =
      (List.range nD).map fun k => acc.getD k 0 + (rs.map fun r => r.getD k 0).sum := by
  induction rs generalizing acc with
  | nil =>
    apply List.ext_getElem
    · simp [hacc]
    · intro i h1 h2
      have hi : i < acc.length := h1
      simp [List.getElem?_eq_getElem hi]
  | cons r rs ih =>
    rw [List.foldl_cons, ih _ (by simp)]
    apply List.map_congr_left
    intro k hk
    have hk := List.mem_range.1 hk
    rw [List.getD_eq_getElem?_getD, List.getElem?_map, List.getElem?_range hk, List.map_cons, List.sum_cons, ← add_assoc]
    rfl

theorem cast_length_ne [CharZero K] {α : Type} {l : List α} (h : l ≠ []) : ((l.length : Nat) : K) ≠ 0 :=
  Nat.cast_ne_zero.2 (by simpa using h)

theorem sum_sub_const (l : List (List K)) (f : List K → K) (c : K) :
    (l.map fun r => f r - c).sum = (l.map f).sum - (l.length : K) * c := by
  induction l with
  | nil => simp
  | cons a l ih =>
    rw [List.map_cons, List.sum_cons, ih, List.map_cons, List.sum_cons, List.length_cons]; push_cast; ring

theorem isMean_centerOf [CharZero K] {rows : List (List K)} (h : rows ≠ []) (nD : Nat) :
    IsMean rows nD (centerOf rows nD) := by
  refine ⟨by simp [centerOf], ?_⟩
  intro k x hx
  have hk : k < nD := by
    have := (List.getElem?_eq_some_iff.1 hx).1
    simpa [centerOf] using this
  rw [centerOf, List.getElem?_map, List.getElem?_range hk] at hx
  cases Option.some.inj hx
  rw [colMean, mul_div_cancel₀ _ (cast_length_ne h)]

/-- Translation to the centre centres. -/
theorem isCentred_translate [CharZero K] {coords : List (List K)} (h : coords ≠ []) {nD : Nat} (hr : Rect nD coords) :
    IsCentred coords nD (coords.map fun r => List.zipWith (· - ·) r (centerOf coords nD)) := by
  have hlen : (centerOf coords nD).length = nD := by simp [centerOf]
  have hrect : Rect nD (coords.map fun r => List.zipWith (· - ·) r (centerOf coords nD)) := by
    intro r hrm
    obtain ⟨s, hs, rfl⟩ := List.mem_map.1 hrm
    rw [List.length_zipWith, hr s hs, hlen, min_self]
  refine ⟨hrect, ⟨_, hlen, rfl⟩, ⟨by simp, ?_⟩, ?_⟩
  · intro k x hx
    obtain ⟨hk, rfl⟩ := List.getElem?_eq_some_iff.1 hx
    rw [List.length_replicate] at hk
    rw [List.getElem_replicate, mul_zero, List.map_map]
    have : ∀ r ∈ coords, ((fun r : List K => r.getD k 0) ∘ fun r => List.zipWith (· - ·) r (centerOf coords nD)) r =
        r.getD k 0 - colMean coords k := by
      intro r hrm
      have hrl := hr r hrm
      have h1 : r[k]? = some (r[k]'(by omega)) := List.getElem?_eq_getElem (by omega)
      have h2 : (centerOf coords nD)[k]? = some (colMean coords k) := by
        rw [centerOf, List.getElem?_map, List.getElem?_range hk]; rfl
      simp only [Function.comp, List.getD_eq_getElem?_getD, List.getElem?_zipWith, h1, h2]
      rfl
    rw [List.map_congr_left this, sum_sub_const, colMean, mul_div_cancel₀ _ (cast_length_ne h), sub_self]
  · intro i j p q p' q' hp hq hp' hq'
    rw [List.getElem?_map, hp] at hp'
    rw [List.getElem?_map, hq] at hq'
    cases Option.some.inj hp'
    cases Option.some.inj hq'
    have hpl := hr p (List.mem_of_getElem? hp)
    have hql := hr q (List.mem_of_getElem? hq)
    apply List.ext_getElem
    · simp [hlen, hpl, hql]
    · intro k h1 h2
      simp only [List.getElem_zipWith]
      ring

/-- Points that have mean zero do not move. -/
theorem translate_fixed {coords : List (List K)} {nD : Nat} (hr : Rect nD coords)
    (hm : ∀ k < nD, colMean coords k = 0) :
    (coords.map fun r => List.zipWith (· - ·) r (centerOf coords nD)) = coords := by
  have : centerOf coords nD = List.replicate nD 0 := by
    rw [centerOf, List.eq_replicate_iff]
    refine ⟨by simp, ?_⟩
    intro x hx
    obtain ⟨k, hk, rfl⟩ := List.mem_map.1 hx
    exact hm k (List.mem_range.1 hk)
  rw [this]
  conv_rhs => rw [← List.map_id coords]
  apply List.map_congr_left
  intro r hrm
  apply List.ext_getElem
  · simp [hr r hrm]
  · intro k h1 h2; simp

theorem colMean_zero [CharZero K] {coords : List (List K)} {nD : Nat} (h : IsMean coords nD (List.replicate nD 0)) :
    ∀ k < nD, colMean coords k = 0 := by
  intro k hk
  have := h.mean k 0 (by simp [hk])
  rw [colMean, ← this, mul_zero, zero_div]

theorem centralize_eq {coords : List (List K)} {nD : Nat} (h : nD = 2 ∨ nD = 3) (hr : Rect nD coords) :
    centralize coords nD = some (coords.map fun r => List.zipWith (· - ·) r (centerOf coords nD)) := by
  rw [centralize, if_neg (by omega)]
  congr 1
  apply List.map_congr_left
  intro r hrm
  have hl := hr r hrm
  apply List.ext_getElem
  · simp [centerOf, hl]
  · intro k h1 h2
    have hk : k < nD := by simpa [hl] using h1
    have hk3 : k < 3 := by omega
    simp [centerOf, hk3]

/-! ## the property -/

/-- **C26** `cell_center` (and `center_of_points`) is the mean of the points. -/
theorem C26_center [CharZero K] {rows : List (List K)} (h : rows ≠ []) (nD : Nat) :
    IsMean rows nD (centerOf rows nD) := isMean_centerOf h nD

/-- **C26** `avg_cell_data` of a two-dimensional array: one row per cell, the mean of the data of its nodes. -/
theorem C26_avg_partial [CharZero K] {data : List (List K)} {nD : Nat} {topo : Topo}
    (hin : ∀ n, UsesNode topo n → n < data.length) (hne : ∀ r ∈ topo, r ≠ []) :
    ∃ A, avgCellData 2 data nD topo = some A ∧ A.length = topo.length ∧
      ∀ (c : Nat) (row : List Nat) (a : List K), topo[c]? = some row → A[c]? = some a →
        IsMean (row.map fun n => data.getD n []) nD a := by
  have key : ∀ row ∈ topo, avgCell data nD row =
      some ((List.range nD).map fun k => (row.map fun n => (data.getD n []).getD k 0).sum / (row.length : Nat)) := by
    intro row hrow
    have h1 : (row.mapM fun n => data[n]?) = some (row.map fun n => data.getD n []) := by
      apply mapM_some
      intro n hn
      have := hin n ⟨row, hrow, hn⟩
      rw [List.getD_eq_getElem?_getD, List.getElem?_eq_getElem this]; rfl
    rw [avgCell, h1, Option.map_some, foldl_rows nD _ _ (by simp), List.map_map]
    congr 1
    apply List.map_congr_left
    intro k hk
    have hk := List.mem_range.1 hk
    simp only [Function.comp]
    rw [List.getD_eq_getElem?_getD, List.getElem?_replicate_of_lt hk, Option.getD_some, zero_add, List.map_map]
    rfl
  refine ⟨_, by rw [avgCellData, if_pos rfl]; exact mapM_some key, by simp, ?_⟩
  intro c row a hrow ha
  rw [List.getElem?_map, hrow] at ha
  cases Option.some.inj ha
  refine ⟨by simp, ?_⟩
  intro k x hx
  have hk : k < nD := by simpa using (List.getElem?_eq_some_iff.1 hx).1
  rw [List.getElem?_map, List.getElem?_range hk] at hx
  cases Option.some.inj hx
  rw [List.length_map, mul_div_cancel₀ _ (cast_length_ne (hne row (List.mem_of_getElem? hrow))), List.map_map]
  rfl

/-- Two triangles, two data columns. -/
example : avgCellData 2 ([[0, 1], [3, 1], [6, 1], [0, 4]] : List (List ℚ)) 2 [[0, 1, 2], [0, 1, 3]] =
    some [[3, 1], [1, 2]] := by decide +kernel

/-- **C26** fails for one-dimensional data (one number per node): the function returns a variable that was never
assigned. -/
theorem C26_avg_1d_false (data : List (List K)) (nD : Nat) (topo : Topo) : avgCellData 1 data nD topo = none := rfl

/-- **C26** `centralize` moves points of the plane or the space by one vector such that their mean is the origin, and
does nothing when it is applied again. -/
theorem C26_centralize_partial [CharZero K] {coords : List (List K)} (h : coords ≠ []) {nD : Nat} (hD : nD = 2 ∨ nD = 3)
    (hr : Rect nD coords) :
    ∃ C, centralize coords nD = some C ∧ IsCentred coords nD C ∧ centralize C nD = some C := by
  have hc := isCentred_translate h hr
  refine ⟨_, centralize_eq hD hr, hc, ?_⟩
  rw [centralize_eq hD hc.rect, translate_fixed hc.rect (colMean_zero hc.mean)]

example : centralize ([[0, 0, 1], [2, 0, 1], [1, 3, 4]] : List (List ℚ)) 3 =
    some [[-1, -1, -1], [1, -1, -1], [0, 2, 2]] := by decide +kernel

/-- **C26** fails for points on a line (one column): the second column is used in any case. -/
theorem C26_one_column_false (coords : List (List K)) : centralize coords 1 = none := rfl

/-- **C26** the coordinates of cells are centred cell by cell, for every number of columns. -/
theorem C26_centralize_cells [CharZero K] {ecoords : List (List (List K))} {nD : Nat}
    (h : ∀ e ∈ ecoords, e ≠ [] ∧ Rect nD e) :
    (centralizeCells ecoords nD).length = ecoords.length ∧
    (∀ (i : Nat) (e : List (List K)) (E : List (List K)), ecoords[i]? = some e →
      (centralizeCells ecoords nD)[i]? = some E → IsCentred e nD E) ∧
    centralizeCells (centralizeCells ecoords nD) nD = centralizeCells ecoords nD := by
  refine ⟨by simp [centralizeCells], ?_, ?_⟩
  · intro i e E he hE
    rw [centralizeCells, List.getElem?_map, he] at hE
    cases Option.some.inj hE
    obtain ⟨h1, h2⟩ := h e (List.mem_of_getElem? he)
    exact isCentred_translate h1 h2
  · simp only [centralizeCells, List.map_map]
    apply List.map_congr_left
    intro e he
    obtain ⟨h1, h2⟩ := h e he
    have hc := isCentred_translate h1 h2
    exact translate_fixed hc.rect (colMean_zero hc.mean)

example : centralizeCells ([[[0, 0], [2, 4]], [[1, 1], [1, 3]]] : List (List (List ℚ))) 2 =
    [[[-1, -2], [1, 2]], [[0, -1], [0, 1]]] := by decide +kernel

end PM
