import Verif.PropsMisc
import Verif.PropsAround
import Verif.PropsLocate
import Verif.PropsStack
import Verif.PropsMeshExact

/-!
# C50, C51, C53, C55: exact accounts
-/

namespace PM

/-! ## bins -/

section
variable {K : Type} [Field K] [LinearOrder K] [IsStrictOrderedRing K] [FloorRing K]

/-- Every gap is divided into the smallest number of equal parts that are not longer than `lmax`. -/
inductive FewestParts (lmax : K) : List K → List K → Prop
  | last (b : K) : FewestParts lmax [b] [b]
  | gap {a b : K} {l r : List K} {n : Nat} (hn : 0 < n) (hle : b - a ≤ n * lmax) (hmin : ∀ m : Nat, 0 < m → b - a ≤ m * lmax → n ≤ m)
      (h : FewestParts lmax (b :: l) r) : FewestParts lmax (a :: b :: l) ((List.range n).map (fun (j : Nat) => a + j * ((b - a) / n)) ++ r)

/-- **C50** (exact account) a gap is divided into as few equal parts as the maximum length permits; gaps that are not longer are kept. -/
theorem C50_fewest {lmax : K} (hl : 0 < lmax) : ∀ {bins : List K}, bins ≠ [] → ∃ r, subdivide lmax bins = some r ∧ FewestParts lmax bins r
  | [], h => absurd rfl h
  | [b], _ => ⟨[b], rfl, .last b⟩
  | a :: b :: l, _ => by
    obtain ⟨r, h1, h2⟩ := C50_fewest hl (bins := b :: l) (by simp)
    refine ⟨gapBins lmax a b ++ r, by simp only [subdivide, h1, Option.map_some], ?_⟩
    refine .gap (ndivOf_pos hl) ?_ ?_ h2
    · have := gap_le (a := a) (b := b) hl
      have hn : (0 : K) < ndivOf lmax a b := by exact_mod_cast ndivOf_pos (a := a) (b := b) hl
      rw [div_le_iff₀ hn] at this
      linarith [mul_comm lmax (ndivOf lmax a b : K)]
    · intro m hm hle
      unfold ndivOf
      split
      · have : (b - a) / lmax ≤ m := by rw [div_le_iff₀ hl]; exact hle
        have h3 : ⌈(b - a) / lmax⌉ ≤ (m : Int) := Int.ceil_le.2 (by exact_mod_cast this)
        omega
      · exact hm

omit [IsStrictOrderedRing K] in
/-- **C50** (exact account) without a maximum length, and with an integer one, the bins are the given values, sorted, every one once. -/
theorem C50_int_exact (bins : List K) {l : LMax K} (hl : ∀ x, l ≠ .float x) :
    ∃ r, plateBins bins l = some r ∧ r.Pairwise (· < ·) ∧ ∀ y, y ∈ r ↔ y ∈ bins := by
  refine ⟨npUnique bins, ?_, sorted_npUnique bins, fun y => mem_npUnique⟩
  cases l with
  | float x => exact absurd rfl (hl x)
  | none => rfl
  | int n => rfl

end

example : subdivide (2 : ℚ) [0, 5, 7] = some [0, 5/3, 10/3, 5, 7] := by decide +kernel

/-! ## points around points -/

/-- **C51** (exact account) the rows: the near points (the point itself among them) in increasing order, cut at `n_max` or filled up with
zeros. -/
theorem C51_exact {points : List (V3 ℝ)} {r : ℝ} {n i : Nat} {row : List Nat} (h : (pointsAroundDict points r n).get? i = some row) :
    ∃ near : List Nat, near.Pairwise (· < ·) ∧ (∀ k, k ∈ near ↔ WithinR points r i k) ∧
      row = near.take n ++ List.replicate (n - near.length) 0 := by
  obtain ⟨p, hp, rfl⟩ := around_row h
  refine ⟨whereNear points r p, whereNear_sorted _ _ _, fun k => mem_whereNear hp, ?_⟩
  unfold padRow
  split
  · rename_i hle
    rw [List.take_of_length_le hle]
  · rename_i hle
    have : n - (whereNear points r p).length = 0 := by omega
    rw [this, List.replicate_zero, List.append_nil]

/-! ## points of selected cells -/

section
variable {K : Type} [Field K]

/-- **C53** (exact account) the selected cells: numbers that are no ids of the block are dropped silently, the others are used as row
numbers. The call raises exactly if none is left or one of them is not a row number. -/
theorem C53_exact (coords : List (V3 K)) (ids : List Nat) (topo : Topo) (cells : List Nat)
    (hnode : ∀ cell ∈ topo, ∀ n ∈ cell, n < coords.length) :
    (pointsOfCells coords ids topo (some cells) = none ↔
      (∀ c ∈ cells, c ∉ ids) ∨ ∃ c ∈ cells, c ∈ ids ∧ topo.length ≤ c) ∧
    ∀ r, pointsOfCells coords ids topo (some cells) = some r →
      List.Forall₂ (fun c e => ∃ cell, topo[c]? = some cell ∧ List.Forall₂ (fun n p => coords[n]? = some p) cell e)
        (cells.filter fun c => decide (c ∈ ids)) r := by
  obtain ⟨sel, hsel⟩ : ∃ sel, sel = cells.filter fun c => decide (c ∈ ids) := ⟨_, rfl⟩
  have hfil : (cells.filter fun c => ids.contains c) = sel := by
    rw [hsel]
    congr 1
    funext c
    rw [List.contains_eq_mem]
  have hmem : ∀ c, c ∈ sel ↔ c ∈ cells ∧ c ∈ ids := fun c => by rw [hsel, List.mem_filter, decide_eq_true_eq]
  have hgc : ∀ cell ∈ topo, ∃ e, gather? coords cell = some e := fun cell hc =>
    let ⟨e, he, _⟩ := gather?_some (a := coords) (hnode cell hc)
    ⟨e, he⟩
  have hval : pointsOfCells coords ids topo (some cells) = if sel.isEmpty then none else
      sel.mapM fun c => (topo[c]?).bind fun cell => gather? coords cell := by
    unfold pointsOfCells selectRows
    simp only [hfil]
    split
    · rfl
    · unfold gather?
      exact mapM_fuse (fun c => topo[c]?) _ sel
  rw [← hsel]
  constructor
  · rw [hval]
    constructor
    · intro h
      split at h
      · rename_i he
        left
        intro c hc hi
        have := (hmem c).2 ⟨hc, hi⟩
        rw [List.isEmpty_iff.1 he] at this
        cases this
      · right
        by_contra hn
        push Not at hn
        have : ∀ c ∈ sel, ∃ e, ((topo[c]?).bind fun cell => gather? coords cell) = some e := by
          intro c hc
          obtain ⟨h1, h2⟩ := (hmem c).1 hc
          have hlt := hn c h1 h2
          rw [List.getElem?_eq_getElem hlt]
          exact hgc _ (List.getElem_mem hlt)
        choose! F hF using this
        rw [mapM_some hF] at h
        cases h
    · rintro (h | ⟨c, h1, h2, h3⟩)
      · rw [if_pos]
        rw [List.isEmpty_iff, List.eq_nil_iff_forall_not_mem]
        exact fun c hc => h c ((hmem c).1 hc).1 ((hmem c).1 hc).2
      · split
        · rfl
        · refine mapM_none ((hmem c).2 ⟨h1, h2⟩) ?_
          rw [List.getElem?_eq_none_iff.2 h3]
          rfl
  · intro r h
    rw [hval] at h
    split at h
    · cases h
    · rw [mapM_eq_some_iff] at h
      refine h.imp fun c e he => ?_
      obtain ⟨cell, h1, h2⟩ := Option.bind_eq_some_iff.1 he
      exact ⟨cell, h1, mapM_eq_some_iff.1 h2⟩

end

example : pointsOfCells [(⟨0, 0, 0⟩ : V3 ℚ), ⟨1, 0, 0⟩, ⟨2, 0, 0⟩] [1, 2] [[0, 1], [1, 2]] (some [7, 1]) =
    some [[⟨1, 0, 0⟩, ⟨2, 0, 0⟩]] := by decide +kernel

section
variable {K : Type} [Field K]

omit [Field K] in
theorem pointsOfCells_width {coords : List (V3 K)} {ids : List Nat} {topo : Topo} {cells : Option (List Nat)} {ec : List (List (V3 K))}
    (h : pointsOfCells coords ids topo cells = some ec) : ∀ e ∈ ec, ∃ row ∈ topo, row.length = e.length := by
  unfold pointsOfCells at h
  obtain ⟨rows, h1, h2⟩ := Option.bind_eq_some_iff.1 h
  have hrows : ∀ r ∈ rows, r ∈ topo := by
    unfold selectRows at h1
    split at h1
    · obtain rfl := Option.some.inj h1
      exact fun r hr => hr
    · dsimp only at h1
      split at h1
      · cases h1
      · intro r hr
        obtain ⟨k, hk⟩ := List.getElem?_of_mem hr
        unfold gather? at h1
        have := List.Forall₂.length_eq (mapM_eq_some_iff.1 h1)
        have hk' := (List.getElem?_eq_some_iff.1 hk).1
        rw [← this] at hk'
        obtain ⟨b, e1, e2⟩ := mapM_get h1 (List.getElem?_eq_getElem hk')
        rw [hk] at e2
        obtain rfl := Option.some.inj e2
        exact List.mem_of_getElem? e1
  intro e he
  obtain ⟨k, hk⟩ := List.getElem?_of_mem he
  have hk' := (List.getElem?_eq_some_iff.1 hk).1
  rw [← List.Forall₂.length_eq (mapM_eq_some_iff.1 h2)] at hk'
  obtain ⟨b, e1, e2⟩ := mapM_get h2 (List.getElem?_eq_getElem hk')
  rw [hk] at e2
  obtain rfl := Option.some.inj e2
  exact ⟨_, hrows _ (List.getElem_mem hk'), List.Forall₂.length_eq (mapM_eq_some_iff.1 e1)⟩

/-- **C53** (exact account) with evaluation points: unless there are three of them and cells are selected, every selected cell has a
row with the sum of shape functions times nodes for every point. -/
theorem C53_points_exact {coords : List (V3 K)} {ids : List Nat} {topo : Topo} {cells : Option (List Nat)} {shp : List (List K)}
    (hw : ∀ w ∈ shp, ∀ row ∈ topo, w.length = row.length) (h3 : shp.length ≠ 3 ∨ cells = none) :
    pointsInCells coords ids topo cells shp =
      (pointsOfCells coords ids topo cells).map fun ec => ec.map fun e => shp.map fun w => lincomb w e := by
  unfold pointsInCells
  cases hec : pointsOfCells coords ids topo cells with
  | none => rfl
  | some ec =>
    have key : pcoordsToCoords (shp.take shp.length) ec = some (ec.map fun e => shp.map fun w => lincomb w e) := by
      rw [List.take_length]
      refine C54_pcoords fun w hw' e he => ?_
      obtain ⟨row, h1, h2⟩ := pointsOfCells_width hec e he
      rw [hw w hw' row h1, h2]
    simp only [Option.bind_some, Option.map_some]
    rcases h3 with h | rfl
    · rw [if_neg h, Option.bind_some, if_pos le_rfl, key]
    · split <;> rw [Option.bind_some, if_pos le_rfl, key]

/-- **C53** (exact account) three evaluation points and selected cells: the values of the `j`-th point are those at the point whose
number is the `j`-th selected cell; fewer than three selected cells, or a cell after the third, is undefined. -/
theorem C53_three_points_exact {coords : List (V3 K)} {ids : List Nat} {topo : Topo} {cells : List Nat} {w0 w1 w2 : List K}
    (hw : ∀ w ∈ [w0, w1, w2], ∀ row ∈ topo, w.length = row.length) {sel : List Nat} (hs : sel = cells.filter fun c => decide (c ∈ ids)) :
    ((∃ c ∈ sel, 3 ≤ c) ∨ sel.length < 3 → pointsInCells coords ids topo (some cells) [w0, w1, w2] = none) ∧
    ((∀ c ∈ sel, c < 3) → 3 ≤ sel.length → pointsInCells coords ids topo (some cells) [w0, w1, w2] =
      (pointsOfCells coords ids topo (some cells)).map fun ec => ec.map fun e =>
        (sel.take 3).map fun c => lincomb (if c = 0 then w0 else if c = 1 then w1 else w2) e) := by
  have hfil : (cells.filter fun c => ids.contains c) = sel := by
    rw [hs]
    congr 1
    funext c
    rw [List.contains_eq_mem]
  have hlen : ([w0, w1, w2] : List (List K)).length = 3 := rfl
  constructor
  · intro h
    unfold pointsInCells
    cases hec : pointsOfCells coords ids topo (some cells) with
    | none => rfl
    | some ec =>
      simp only [Option.bind_some, hlen, if_true, hfil]
      rcases h with ⟨c, hc, h3⟩ | h
      · rw [show gather? [w0, w1, w2] sel = none from mapM_none hc (List.getElem?_eq_none_iff.2 h3)]
        rfl
      · cases hg : gather? [w0, w1, w2] sel with
        | none => rfl
        | some s =>
          have := List.Forall₂.length_eq (mapM_eq_some_iff.1 hg)
          rw [Option.bind_some, if_neg (by omega)]
  · intro h1 h2
    have hg : gather? [w0, w1, w2] sel = some (sel.map fun c => if c = 0 then w0 else if c = 1 then w1 else w2) := by
      unfold gather?
      refine mapM_some fun c hc => ?_
      have := h1 c hc
      match c, this with
      | 0, _ => rfl
      | 1, _ => rfl
      | 2, _ => rfl
    unfold pointsInCells
    cases hec : pointsOfCells coords ids topo (some cells) with
    | none => rfl
    | some ec =>
      simp only [Option.bind_some, hlen, if_true, hfil, Option.map_some]
      rw [hg, Option.bind_some, if_pos (by rw [List.length_map]; exact h2), ← List.map_take]
      rw [C54_pcoords (by
        intro w hw' e he
        obtain ⟨row, r1, r2⟩ := pointsOfCells_width hec e he
        rw [← r2]
        refine hw w ?_ row r1
        obtain ⟨c, -, rfl⟩ := List.mem_map.1 hw'
        split
        · simp
        · split <;> simp)]
      simp only [List.map_map]
      rfl

end

/-- Two points in one of two cells; three points in three cells, of which the rows come out in the order of the cells. -/
example : pointsInCells [(⟨0, 0, 0⟩ : V3 ℚ), ⟨1, 0, 0⟩, ⟨2, 0, 0⟩, ⟨3, 0, 0⟩] [0, 1, 2] [[0, 1], [1, 2], [2, 3]] (some [2, 0, 1])
    [[1, 0], [1/2, 1/2], [0, 1]] =
    some [[⟨3, 0, 0⟩, ⟨2, 0, 0⟩, ⟨5/2, 0, 0⟩], [⟨1, 0, 0⟩, ⟨0, 0, 0⟩, ⟨1/2, 0, 0⟩], [⟨2, 0, 0⟩, ⟨1, 0, 0⟩, ⟨3/2, 0, 0⟩]] := by
  decide +kernel

/-! ## flipped cells -/

/-- **C55** (exact account) node `j` of a flipped cell is node `j` of the cell counted from the end. -/
theorem C55_exact (t : Topo) (i : Nat) (r : List Nat) (h : t[i]? = some r) :
    ∃ r', (flipCells t)[i]? = some r' ∧ r'.length = r.length ∧ ∀ j, j < r.length → r'[j]? = r[r.length - 1 - j]? := by
  refine ⟨r.reverse, ?_, List.length_reverse, fun j hj => ?_⟩
  · unfold flipCells
    rw [List.getElem?_map, h]
    rfl
  · rw [List.getElem?_reverse hj]

end PM
