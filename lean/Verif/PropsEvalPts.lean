import Verif.EvalPts
import Verif.PropsShape
import Verif.PropsGenShape
import Verif.PropsJacobian
import Verif.PropsForm
import Mathlib.Data.Rat.Floor

/-!
# C95: shape functions at several points
-/

namespace PM

open Shp

section
variable {K : Type} [Field K]

/-- Specification: the point with the first `dim` of the coordinates `a`. -/
def pointAt (dim : Nat) (a : List K) : V3 K := ⟨a.getD 0 0, if 2 ≤ dim then a.getD 1 0 else 0, if 3 ≤ dim then a.getD 2 0 else 0⟩

/-- Specification: `r` are weights of the nodes `lc` at `x`: they sum to one, reproduce linear functions of `dim` variables, and select the node if `x`
is a node. -/
structure WeightsAt (dim : Nat) (lc : List (V3 Int)) (x : V3 K) (r : List K) : Prop where
  len : r.length = lc.length
  unity : r.sum = 1
  linear : ∀ a b c d : K, (dim < 2 → c = 0) → (dim < 3 → d = 0) →
    ((r.zip lc).map fun q => q.1 * linVal a b c d (half q.2)).sum = linVal a b c d x
  node : ∀ (j : Nat) (p : V3 Int), lc[j]? = some p → x = half p → ∀ (i : Nat) (v : K), r[i]? = some v → v = if i = j then 1 else 0

theorem weights_of_interpolates {dim : Nat} {lc : List (V3 Int)} {N : List PE} (h : Interpolates K dim lc N) (x : V3 K) :
    WeightsAt dim lc x (N.map fun e => e.eval x) := by
  refine ⟨by simp [h.len], h.unity x, fun a b c d hc hd => ?_, fun j p hj hx i v hi => ?_⟩
  · rw [← h.linear a b c d x hc hd, List.zip_map_left, List.map_map]
    rfl
  · rw [List.getElem?_map, Option.map_eq_some_iff] at hi
    obtain ⟨e, he, rfl⟩ := hi
    rw [hx]
    exact h.kron i j e p he hj

theorem point?_some {c : ShpClass} {a : List K} (h1 : 1 ≤ c.nD) (h3 : c.nD ≤ 3) (hc : c.cut = true → c.nD = 2)
    (ha : if c.cut = true then 2 ≤ a.length else a.length = c.nD) : c.point? a = some (pointAt c.nD a) := by
  obtain ⟨nD, comp, cut, blind, N, dN, eye, dof⟩ := c
  simp only [ShpClass.point?, pointAt] at *
  cases cut with
  | true =>
    obtain rfl := hc rfl
    rw [if_pos rfl] at ha ⊢
    match a, ha with
    | r :: s :: l, _ => simp
  | false =>
    rw [if_neg (by decide)] at ha ⊢
    match nD, h1, h3, a, ha with
    | 1, _, _, [r], _ => simp
    | 2, _, _, [r, s], _ => simp
    | 3, _, _, [r, s, t], _ => simp

variable [LinearOrder K] [FloorRing K]

/-- What the class must satisfy; see `C95_compiled_partial` and `C95_generated_partial` for the classes that do. -/
structure ShpOK (K : Type) [Field K] (c : ShpClass) (lc : List (V3 Int)) : Prop where
  lo : 1 ≤ c.nD
  hi : c.nD ≤ 3
  cut : c.cut = true → c.nD = 2
  itp : Interpolates K c.nD lc c.N

/-- Rows of coordinates that fit the class: as many as there are dimensions, or at least two where the rest is ignored. -/
def Fits (c : ShpClass) (a : List K) : Prop := if c.cut = true then 2 ≤ a.length else a.length = c.nD

omit [LinearOrder K] [FloorRing K] in
theorem points?_some {c : ShpClass} {lc : List (V3 Int)} (hc : ShpOK K c lc) (hl : ¬ (c.compiled = true ∧ c.nD = 1)) {int : Bool} {rows : List (List K)}
    (hr : ∀ a ∈ rows, Fits c a) (hne : rows ≠ []) : c.points? (.mat int rows) = some (rows.map (pointAt c.nD)) := by
  rw [ShpClass.points?, if_neg hl, if_neg (fun h => hne h.2), mapM_some (g := pointAt c.nD)]
  intro a ha
  exact point?_some hc.lo hc.hi hc.cut (hr a ha)

theorem values_eq {c : ShpClass} {lc : List (V3 Int)} (hc : ShpOK K c lc) (hl : ¬ (c.compiled = true ∧ c.nD = 1)) {int : Bool} {rows : List (List K)}
    (hr : ∀ a ∈ rows, Fits c a) (hne : rows ≠ []) :
    shapeValues c (.mat int rows) = some (rows.map fun a => c.N.map fun e => c.store int (e.eval (pointAt c.nD a))) := by
  rw [shapeValues, PArr.front, points?_some hc hl hr hne, Option.map_some, List.map_map]
  rfl

theorem store_float (c : ShpClass) (x : K) : c.store false x = x := by simp [ShpClass.store]

/-- **C95** (values): for points in floating point numbers, one row of weights for each point, in order. -/
theorem C95_values_partial {c : ShpClass} {lc : List (V3 Int)} (hc : ShpOK K c lc) (hl : ¬ (c.compiled = true ∧ c.nD = 1)) {rows : List (List K)}
    (hr : ∀ a ∈ rows, Fits c a) (hne : rows ≠ []) :
    ∃ R, shapeValues c (.mat false rows) = some R ∧ R.length = rows.length ∧
      ∀ (i : Nat) (a r : List K), rows[i]? = some a → R[i]? = some r → WeightsAt c.nD lc (pointAt c.nD a) r := by
  refine ⟨_, values_eq hc hl hr hne, by simp, fun i a r ha hi => ?_⟩
  rw [List.getElem?_map, ha, Option.map_some] at hi
  obtain rfl := Option.some.inj hi
  simp only [store_float]
  exact weights_of_interpolates hc.itp _

/-- **C95** (values): a single point of a solid gives a table with one row. -/
theorem C95_single_partial {c : ShpClass} {lc : List (V3 Int)} (hc : ShpOK K c lc) (h3 : c.nD = 3) {a : List K} (ha : a.length = 3) :
    ∃ r, shapeValues c (.vec false a) = some [r] ∧ WeightsAt 3 lc (pointAt 3 a) r := by
  have hcut : ¬ c.cut = true := fun h => by have := hc.cut h; omega
  obtain ⟨R, h1, h2, h⟩ := C95_values_partial hc (rows := [a]) (fun h => by omega) (fun b hb => by
    rw [List.mem_singleton.1 hb, Fits, if_neg hcut, h3, ha]) (by simp)
  obtain ⟨r, rfl⟩ := List.length_eq_one_iff.1 h2
  refine ⟨r, ?_, by simpa [h3] using h 0 a r rfl rfl⟩
  rw [← h1]
  simp [shapeValues, PArr.front, h3, PArr.isInt]

/-- **C95** (values): numbers as points of lines with two nodes. -/
theorem C95_lines [CharZero K] (a : List K) :
    ∃ R, shapeValues clsL2 (.vec false a) = some R ∧ R.length = a.length ∧
      ∀ (i : Nat) (x : K) (r : List K), a[i]? = some x → R[i]? = some r → WeightsAt 1 lcL2 ⟨x, 0, 0⟩ r := by
  refine ⟨(a.map fun r => (⟨r, 0, 0⟩ : V3 K)).map fun x => clsL2.N.map fun e => clsL2.store false (e.eval x), ?_, by simp, fun i x r hx hi => ?_⟩
  · rw [shapeValues, PArr.front, if_neg (by decide), ShpClass.points?, if_pos (by decide)]
    rfl
  · rw [List.getElem?_map, List.getElem?_map, hx, Option.map_some, Option.map_some] at hi
    obtain rfl := Option.some.inj hi
    simp only [store_float]
    exact weights_of_interpolates (C34_L2 K) _

/-- The classes with compiled functions, and the nodes of their master cells. -/
def compiledTable : List (ShpClass × List (V3 Int)) :=
  [(clsT3, lcT3), (clsT6, lcT6), (clsQ4, lcQ4), (clsQ9, lcQ9), (clsTET4, lcTET4), (clsH8, lcH8), (clsH27, lcH27)]

omit [LinearOrder K] [FloorRing K] in
theorem compiled_ok [CharZero K] {c : ShpClass} {lc : List (V3 Int)} (h : (c, lc) ∈ compiledTable) :
    ShpOK K c lc ∧ ¬ (c.compiled = true ∧ c.nD = 1) := by
  simp only [compiledTable, List.mem_cons, Prod.mk.injEq, List.not_mem_nil, or_false] at h
  rcases h with ⟨rfl, rfl⟩ | ⟨rfl, rfl⟩ | ⟨rfl, rfl⟩ | ⟨rfl, rfl⟩ | ⟨rfl, rfl⟩ | ⟨rfl, rfl⟩ | ⟨rfl, rfl⟩
  · exact ⟨⟨by decide, by decide, by decide, C34_T3 K⟩, by decide⟩
  · exact ⟨⟨by decide, by decide, by decide, C34_T6 K⟩, by decide⟩
  · exact ⟨⟨by decide, by decide, by decide, C34_Q4 K⟩, by decide⟩
  · exact ⟨⟨by decide, by decide, by decide, C34_Q9 K⟩, by decide⟩
  · exact ⟨⟨by decide, by decide, by decide, C34_TET4 K⟩, by decide⟩
  · exact ⟨⟨by decide, by decide, by decide, C34_H8 K⟩, by decide⟩
  · exact ⟨⟨by decide, by decide, by decide, C34_H27 K⟩, by decide⟩

/-- **C95** (values): all classes of surfaces and solids with compiled functions. -/
theorem C95_compiled_partial [CharZero K] {c : ShpClass} {lc : List (V3 Int)} (h : (c, lc) ∈ compiledTable) {rows : List (List K)}
    (hr : ∀ a ∈ rows, Fits c a) (hne : rows ≠ []) :
    ∃ R, shapeValues c (.mat false rows) = some R ∧ R.length = rows.length ∧
      ∀ (i : Nat) (a r : List K), rows[i]? = some a → R[i]? = some r → WeightsAt c.nD lc (pointAt c.nD a) r :=
  C95_values_partial (compiled_ok (K := K) h).1 (compiled_ok (K := K) h).2 hr hne

/-- Specification: the numbers a point may have, for the classes of `compiledTable`: triangles with six nodes and quadrilaterals take two or more and use
two, triangles with three nodes take two, solids three. -/
def pointSizes : List (ShpClass × (Nat → Bool)) :=
  [(clsT3, (· == 2)), (clsT6, (2 ≤ ·)), (clsQ4, (2 ≤ ·)), (clsQ9, (2 ≤ ·)), (clsTET4, (· == 3)), (clsH8, (· == 3)), (clsH27, (· == 3))]

/-- **C95** (arguments): points with another number of coordinates are refused, all other ones are good. -/
theorem C95_sizes [CharZero K] {c : ShpClass} {ok : Nat → Bool} (h : (c, ok) ∈ pointSizes) (rows : List (List K)) (int : Bool) :
    (∀ a : List K, Fits c a ↔ ok a.length = true) ∧ ((∃ a ∈ rows, ok a.length = false) → shapeValues c (.mat int rows) = none) ∧
      ((∀ a ∈ rows, ok a.length = true) → ∃ R, shapeValues c (.mat int rows) = some R ∧ R.length = rows.length) := by
  have hf : (∀ a : List K, Fits c a ↔ ok a.length = true) ∧ (∀ a : List K, ok a.length = false → c.point? a = none) := by
    simp only [pointSizes, List.mem_cons, Prod.mk.injEq, List.not_mem_nil, or_false] at h
    rcases h with ⟨rfl, rfl⟩ | ⟨rfl, rfl⟩ | ⟨rfl, rfl⟩ | ⟨rfl, rfl⟩ | ⟨rfl, rfl⟩ | ⟨rfl, rfl⟩ | ⟨rfl, rfl⟩ <;>
      refine ⟨fun a => ?_, fun a ha => ?_⟩
    all_goals first
      | (simp [Fits, clsT3, clsT6, clsQ4, clsQ9, clsTET4, clsH8, clsH27]; done)
      | (match a, ha with
          | [], _ => rfl
          | [_], _ => rfl
          | [_, _], h => first | rfl | (simp at h)
          | [_, _, _], h => first | rfl | (simp at h)
          | _ :: _ :: _ :: _ :: _, h => first | rfl | (simp at h))
  obtain ⟨h1, h2⟩ := hf
  have hm : c ∈ compiledTable.map Prod.fst := (show c ∈ pointSizes.map Prod.fst from List.mem_map.2 ⟨(c, ok), h, rfl⟩)
  obtain ⟨⟨c, lc⟩, hlc, rfl⟩ := List.mem_map.1 hm
  obtain ⟨k1, k2⟩ := compiled_ok (K := K) hlc
  refine ⟨h1, ?_, fun hr => ?_⟩
  swap
  · by_cases hne : rows = []
    · subst hne
      refine ⟨[], ?_, rfl⟩
      simp only [compiledTable, List.mem_cons, Prod.mk.injEq, List.not_mem_nil, or_false] at hlc
      rcases hlc with ⟨rfl, rfl⟩ | ⟨rfl, rfl⟩ | ⟨rfl, rfl⟩ | ⟨rfl, rfl⟩ | ⟨rfl, rfl⟩ | ⟨rfl, rfl⟩ | ⟨rfl, rfl⟩ <;> rfl
    · exact ⟨_, values_eq k1 k2 (fun a ha => (h1 a).2 (hr a ha)) hne, by simp⟩
  rintro ⟨a, ha, hn⟩
  rw [shapeValues, PArr.front, ShpClass.points?, if_neg k2]
  split
  · rfl
  · rw [mapM_none ha (h2 a hn)]
    rfl

omit [LinearOrder K] [FloorRing K] in
theorem gen_ok {inv : List (List ℚ) → Option (List (List ℚ))} {nD : Nat} {lc : List (V3 Int)} {base : List PE} (h1 : 1 ≤ nD) (h3 : nD ≤ 3)
    (h : ∃ N dN, generate inv (nodesQ lc) base ([Dir.r, Dir.s, Dir.t].take nD) = some (N, dN) ∧ Interpolates K nD lc N) :
    ∃ c, genCls inv nD lc base = some c ∧ c.nD = nD ∧ ShpOK K c lc ∧ c.compiled = false ∧ c.cut = false ∧ c.eye = none ∧ c.dof = 3 := by
  obtain ⟨N, dN, h, hN⟩ := h
  exact ⟨_, by rw [genCls, h]; rfl, rfl, ⟨h1, h3, by simp, hN⟩, rfl, rfl, rfl, rfl⟩

/-- The classes whose functions are generated. -/
def generatedTable : List (Nat × List (V3 Int) × List PE) :=
  [(1, lcL3, baseL3), (3, lcTET10, baseTET10), (3, lcW6, baseW6), (3, lcW18, baseW18)]

/-- **C95** (values): the classes with generated functions, lines with three nodes among them. -/
theorem C95_generated_partial [CharZero K] {inv : List (List ℚ) → Option (List (List ℚ))} (hinv : InvContract inv) {nD : Nat} {lc : List (V3 Int)}
    {base : List PE} (h : (nD, lc, base) ∈ generatedTable) {rows : List (List K)} (hr : ∀ a ∈ rows, a.length = nD) (hne : rows ≠ []) (int : Bool) :
    ∃ c R, genCls inv nD lc base = some c ∧ shapeValues c (.mat int rows) = some R ∧ R.length = rows.length ∧
      ∀ (i : Nat) (a r : List K), rows[i]? = some a → R[i]? = some r → WeightsAt nD lc (pointAt nD a) r := by
  have hc : ∃ c, genCls inv nD lc base = some c ∧ c.nD = nD ∧ ShpOK K c lc ∧ c.compiled = false ∧ c.cut = false ∧ c.eye = none ∧ c.dof = 3 := by
    simp only [generatedTable, List.mem_cons, Prod.mk.injEq, List.not_mem_nil, or_false] at h
    rcases h with ⟨rfl, rfl, rfl⟩ | ⟨rfl, rfl, rfl⟩ | ⟨rfl, rfl, rfl⟩ | ⟨rfl, rfl, rfl⟩
    · exact gen_ok (by decide) (by decide) (C36_L3 hinv _ K)
    · exact gen_ok (by decide) (by decide) (C36_TET10 hinv _ K)
    · exact gen_ok (by decide) (by decide) (C36_W6 hinv _ K)
    · exact gen_ok (by decide) (by decide) (C36_W18 hinv _ K)
  obtain ⟨c, h1, rfl, h2, h3, h4, -⟩ := hc
  obtain ⟨R, g1, g2, g3⟩ := C95_values_partial h2 (by simp [h3]) (rows := rows) (fun a ha => by rw [Fits, h4, if_neg (by decide)]; exact hr a ha) hne
  refine ⟨c, R, h1, ?_, g2, g3⟩
  rw [← g1]
  cases int with
  | false => rfl
  | true => simp [shapeValues, PArr.front, PArr.isInt, ShpClass.store, h3, ShpClass.points?]

/-! ## points with integer coordinates -/

theorem trunc_int (n : ℤ) [IsStrictOrderedRing K] : truncK (n : K) = n := by
  rw [truncK]
  split <;> simp

/-- An expression with integer coefficients. -/
def PE.intCoeffs : PE → Bool
  | .c q => q.den == 1
  | .r | .s | .t => true
  | .add a b | .sub a b | .mul a b => a.intCoeffs && b.intCoeffs
  | .neg a => a.intCoeffs
  | .pow a _ => a.intCoeffs

omit [LinearOrder K] [FloorRing K] in
theorem PE.eval_int [CharZero K] {x : V3 K} (hx : ∃ a b c : ℤ, x = ⟨(a : K), (b : K), (c : K)⟩) {e : PE} (he : e.intCoeffs = true) : ∃ n : ℤ, e.eval x = n := by
  obtain ⟨a, b, c, rfl⟩ := hx
  induction e with
  | c q =>
    refine ⟨q.num, ?_⟩
    have : (q : ℚ) = (q.num : ℚ) := by
      have h : q.den = 1 := by simpa [PE.intCoeffs] using he
      conv_lhs => rw [← Rat.num_div_den q, h]
      simp
    rw [PE.eval, this]
    simp
  | r => exact ⟨a, rfl⟩
  | s => exact ⟨b, rfl⟩
  | t => exact ⟨c, rfl⟩
  | add e f h1 h2 =>
    simp only [PE.intCoeffs, Bool.and_eq_true] at he
    obtain ⟨m, hm⟩ := h1 he.1
    obtain ⟨n, hn⟩ := h2 he.2
    exact ⟨m + n, by simp [PE.eval, hm, hn]⟩
  | sub e f h1 h2 =>
    simp only [PE.intCoeffs, Bool.and_eq_true] at he
    obtain ⟨m, hm⟩ := h1 he.1
    obtain ⟨n, hn⟩ := h2 he.2
    exact ⟨m - n, by simp [PE.eval, hm, hn]⟩
  | mul e f h1 h2 =>
    simp only [PE.intCoeffs, Bool.and_eq_true] at he
    obtain ⟨m, hm⟩ := h1 he.1
    obtain ⟨n, hn⟩ := h2 he.2
    exact ⟨m * n, by simp [PE.eval, hm, hn]⟩
  | neg e h1 =>
    obtain ⟨m, hm⟩ := h1 he
    exact ⟨-m, by simp [PE.eval, hm]⟩
  | pow e k h1 =>
    obtain ⟨m, hm⟩ := h1 he
    exact ⟨m ^ k, by simp [PE.eval, hm]⟩

omit [LinearOrder K] [FloorRing K] in
theorem pointAt_int {dim : Nat} {a : List K} (ha : ∀ x ∈ a, ∃ n : ℤ, x = n) : ∃ i j k : ℤ, pointAt dim a = ⟨(i : K), (j : K), (k : K)⟩ := by
  have h : ∀ k, ∃ n : ℤ, a.getD k 0 = n := by
    intro k
    by_cases hk : k < a.length
    · obtain ⟨n, hn⟩ := ha a[k] (List.getElem_mem hk)
      exact ⟨n, by rw [List.getD_eq_getElem?_getD, List.getElem?_eq_getElem hk, Option.getD_some, hn]⟩
    · exact ⟨0, by rw [List.getD_eq_getElem?_getD, List.getElem?_eq_none (by omega)]; simp⟩
  obtain ⟨i, hi⟩ := h 0
  obtain ⟨j, hj⟩ := h 1
  obtain ⟨k, hk⟩ := h 2
  refine ⟨i, if 2 ≤ dim then j else 0, if 3 ≤ dim then k else 0, ?_⟩
  rw [pointAt, hi, hj, hk]
  split <;> split <;> simp

/-- **C95** (integers): for triangles with three and six nodes and tetrahedra with four, points in integers are as good as floating point ones. -/
theorem C95_int_simplices [CharZero K] [IsStrictOrderedRing K] {c : ShpClass} {lc : List (V3 Int)} (h : (c, lc) ∈ [(clsT3, lcT3), (clsT6, lcT6), (clsTET4, lcTET4)])
    {rows : List (List K)} (hr : ∀ a ∈ rows, Fits c a ∧ ∀ x ∈ a, ∃ n : ℤ, x = n) (hne : rows ≠ []) :
    ∃ R, shapeValues c (.mat true rows) = some R ∧ R.length = rows.length ∧
      ∀ (i : Nat) (a r : List K), rows[i]? = some a → R[i]? = some r → WeightsAt c.nD lc (pointAt c.nD a) r := by
  have ht : (c, lc) ∈ compiledTable ∧ ∀ e ∈ c.N, e.intCoeffs = true := by
    simp only [List.mem_cons, Prod.mk.injEq, List.not_mem_nil, or_false] at h
    rcases h with ⟨rfl, rfl⟩ | ⟨rfl, rfl⟩ | ⟨rfl, rfl⟩
    · exact ⟨by simp [compiledTable], by decide +kernel⟩
    · exact ⟨by simp [compiledTable], by decide +kernel⟩
    · exact ⟨by simp [compiledTable], by decide +kernel⟩
  obtain ⟨R, g1, g2, g3⟩ := C95_compiled_partial ht.1 (fun a ha => (hr a ha).1) hne
  refine ⟨R, ?_, g2, g3⟩
  obtain ⟨k1, k2⟩ := compiled_ok (K := K) ht.1
  rw [← g1, values_eq k1 k2 (fun a ha => (hr a ha).1) hne, values_eq k1 k2 (fun a ha => (hr a ha).1) hne]
  congr 1
  refine List.map_congr_left fun a ha => List.map_congr_left fun e he => ?_
  obtain ⟨n, hn⟩ := PE.eval_int (pointAt_int (hr a ha).2) (ht.2 e he)
  rw [hn, store_float, ShpClass.store]
  split
  · exact trunc_int n
  · rfl

/-- An expression with integer values at all points with integer coordinates: in terms of the halves of the coordinates, rounded down, it has integer
coefficients whichever of them are odd. -/
def PE.intValued (e : PE) : Bool :=
  [0, 1].all fun i : ℚ => [0, 1].all fun j : ℚ => [0, 1].all fun k : ℚ =>
    (PE.subst (.add (.mul (.c 2) .r) (.c i)) (.add (.mul (.c 2) .s) (.c j)) (.add (.mul (.c 2) .t) (.c k)) e).nf.all fun m => m.2.den == 1

omit [LinearOrder K] [FloorRing K] in
theorem nfEval_int [CharZero K] (x : V3 ℤ) : ∀ p : PE.NF, p.all (fun m => m.2.den == 1) = true →
    ∃ n : ℤ, PE.nfEval (⟨(x.x : K), (x.y : K), (x.z : K)⟩ : V3 K) p = n
  | [], _ => ⟨0, by simp [PE.nfEval]⟩
  | m :: p, h => by
    rw [List.all_cons, Bool.and_eq_true] at h
    obtain ⟨n, hn⟩ := nfEval_int x p h.2
    have hm : (m.2 : ℚ) = (m.2.num : ℚ) := by
      have h : m.2.den = 1 := by simpa using h.1
      conv_lhs => rw [← Rat.num_div_den m.2, h]
      simp
    refine ⟨m.2.num * (x.x ^ m.1.1 * x.y ^ m.1.2.1 * x.z ^ m.1.2.2) + n, ?_⟩
    rw [PE.nfEval_cons, hn, hm]
    simp [PE.monoVal]

omit [LinearOrder K] [FloorRing K] in
theorem PE.eval_intValued [CharZero K] {x : V3 K} (hx : ∃ a b c : ℤ, x = ⟨(a : K), (b : K), (c : K)⟩) {e : PE} (he : e.intValued = true) :
    ∃ n : ℤ, e.eval x = n := by
  obtain ⟨a, b, c, rfl⟩ := hx
  have hpar : ∀ a : ℤ, ∃ (i : ℚ), i ∈ [(0 : ℚ), 1] ∧ ∃ a' : ℤ, (a : K) = (2 : ℚ) * (a' : K) + (i : K) := by
    intro a
    rcases Int.emod_two_eq_zero_or_one a with h | h
    · exact ⟨0, by simp, a / 2, by have : a = 2 * (a / 2) := by omega
                                   conv_lhs => rw [this]
                                   push_cast; ring⟩
    · exact ⟨1, by simp, a / 2, by have : a = 2 * (a / 2) + 1 := by omega
                                   conv_lhs => rw [this]
                                   push_cast; ring⟩
  obtain ⟨i, hi, a', ha⟩ := hpar a
  obtain ⟨j, hj, b', hb⟩ := hpar b
  obtain ⟨k, hk, c', hc⟩ := hpar c
  have h := List.all_eq_true.1 (List.all_eq_true.1 (List.all_eq_true.1 he i hi) j hj) k hk
  obtain ⟨n, hn⟩ := nfEval_int (K := K) ⟨a', b', c'⟩ _ h
  refine ⟨n, ?_⟩
  rw [← hn, PE.nf_sound, PE.eval_subst]
  simp only [PE.eval, ha, hb, hc]

/-- **C95** (integers): for quadrilaterals with nine nodes and hexahedra with 27 as well. -/
theorem C95_int_quadratic [CharZero K] [IsStrictOrderedRing K] {c : ShpClass} {lc : List (V3 Int)} (h : (c, lc) ∈ [(clsQ9, lcQ9), (clsH27, lcH27)])
    {rows : List (List K)} (hr : ∀ a ∈ rows, Fits c a ∧ ∀ x ∈ a, ∃ n : ℤ, x = n) (hne : rows ≠ []) :
    ∃ R, shapeValues c (.mat true rows) = some R ∧ R.length = rows.length ∧
      ∀ (i : Nat) (a r : List K), rows[i]? = some a → R[i]? = some r → WeightsAt c.nD lc (pointAt c.nD a) r := by
  have ht : (c, lc) ∈ compiledTable ∧ ∀ e ∈ c.N, e.intValued = true := by
    simp only [List.mem_cons, Prod.mk.injEq, List.not_mem_nil, or_false] at h
    rcases h with ⟨rfl, rfl⟩ | ⟨rfl, rfl⟩
    · exact ⟨by simp [compiledTable], by decide +kernel⟩
    · exact ⟨by simp [compiledTable], by decide +kernel⟩
  obtain ⟨R, g1, g2, g3⟩ := C95_compiled_partial ht.1 (fun a ha => (hr a ha).1) hne
  refine ⟨R, ?_, g2, g3⟩
  obtain ⟨k1, k2⟩ := compiled_ok (K := K) ht.1
  rw [← g1, values_eq k1 k2 (fun a ha => (hr a ha).1) hne, values_eq k1 k2 (fun a ha => (hr a ha).1) hne]
  congr 1
  refine List.map_congr_left fun a ha => List.map_congr_left fun e he => ?_
  obtain ⟨n, hn⟩ := PE.eval_intValued (pointAt_int (hr a ha).2) (ht.2 e he)
  rw [hn, store_float, ShpClass.store]
  split
  · exact trunc_int n
  · rfl

/-- **C95** (integers): at the nodes integers do no harm for any class. -/
theorem C95_int_nodes_partial [CharZero K] [IsStrictOrderedRing K] {c : ShpClass} {lc : List (V3 Int)} (h : (c, lc) ∈ compiledTable) {a : List K} (ha : Fits c a) {j : Nat}
    {p : V3 Int} (hj : lc[j]? = some p) (hp : pointAt c.nD a = half p) :
    ∃ r, shapeValues c (.mat true [a]) = some [r] ∧ r.length = lc.length ∧ ∀ (i : Nat) (v : K), r[i]? = some v → v = if i = j then 1 else 0 := by
  obtain ⟨k1, k2⟩ := compiled_ok (K := K) h
  refine ⟨_, values_eq k1 k2 (rows := [a]) (by simpa using ha) (by simp), by simp [k1.itp.len], fun i v hi => ?_⟩
  rw [List.getElem?_map, Option.map_eq_some_iff] at hi
  obtain ⟨e, he, rfl⟩ := hi
  rw [hp, k1.itp.kron i j e p he hj, ShpClass.store]
  split
  · have := trunc_int (K := K) (if i = j then 1 else 0)
    push_cast at this
    exact_mod_cast this
  · rfl

end

/-- **C95** is false for points in integers: at the centres of lines, quadrilaterals and hexahedra all weights are zero. -/
theorem C95_int_false : shapeValues clsL2 (.vec true [(0 : ℚ)]) = some [[0, 0]] ∧
    shapeValues clsQ4 (.mat true [[(0 : ℚ), 0]]) = some [[0, 0, 0, 0]] ∧
    shapeValues clsH8 (.vec true [(0 : ℚ), 0, 0]) = some [[0, 0, 0, 0, 0, 0, 0, 0]] := by
  decide +kernel

/-- **C95** is false for a single point of a surface, and for lines: those with two nodes take numbers only, those with three arrays only. -/
theorem C95_single_false {K : Type} [Field K] [LinearOrder K] [FloorRing K] (int : Bool) (a : List K) :
    (∀ c, c.nD = 2 → shapeValues c (.vec int a) = none) ∧ (∀ rows : List (List K), shapeValues clsL2 (.mat int rows) = none) ∧
      ∀ inv c, genCls inv 1 lcL3 baseL3 = some c → shapeValues c (.vec int a) = none := by
  refine ⟨fun c hc => ?_, fun rows => ?_, fun inv c hc => ?_⟩
  · rw [shapeValues, PArr.front, if_neg (by omega), ShpClass.points?, if_neg (by omega)]
    rfl
  · rw [shapeValues, PArr.front, ShpClass.points?, if_pos (by decide)]
    rfl
  · rw [genCls, Option.map_eq_some_iff] at hc
    obtain ⟨g, -, rfl⟩ := hc
    rw [shapeValues, PArr.front, if_neg (by simp), ShpClass.points?, if_neg (by simp)]
    rfl

/-! ## derivatives -/

/-- An expression without variables. -/
def PE.noVars : PE → Bool
  | .c _ => true
  | .r | .s | .t => false
  | .add a b | .sub a b | .mul a b => a.noVars && b.noVars
  | .neg a => a.noVars
  | .pow a _ => a.noVars

theorem PE.eval_noVars {K : Type} [Field K] {e : PE} (h : e.noVars = true) (x y : V3 K) : e.eval x = e.eval y := by
  induction e with
  | c q => rfl
  | r => cases h
  | s => cases h
  | t => cases h
  | add a b h1 h2 =>
    simp only [PE.noVars, Bool.and_eq_true] at h
    rw [PE.eval, PE.eval, h1 h.1, h2 h.2]
  | sub a b h1 h2 =>
    simp only [PE.noVars, Bool.and_eq_true] at h
    rw [PE.eval, PE.eval, h1 h.1, h2 h.2]
  | mul a b h1 h2 =>
    simp only [PE.noVars, Bool.and_eq_true] at h
    rw [PE.eval, PE.eval, h1 h.1, h2 h.2]
  | neg a h1 => rw [PE.eval, PE.eval, h1 h]
  | pow a k h1 => rw [PE.eval, PE.eval, h1 h]

/-- **C95** (derivatives): for points in floating point numbers, entry `i, j, k` is the derivative of function `j` at point `i` in direction `k`. -/
theorem C95_derivs_partial {c : ShpClass} {lc : List (V3 Int)} (hc : (c, lc) ∈ compiledTable) {rows : List (List ℝ)} (hr : ∀ a ∈ rows, Fits c a)
    (hne : rows ≠ []) :
    ∃ R, shapeDerivs c (.mat false rows) = some R ∧ R.length = rows.length ∧
      ∀ (i : Nat) (a : List ℝ) (M : List (List ℝ)), rows[i]? = some a → R[i]? = some M → M.length = lc.length ∧ (∀ row ∈ M, row.length = c.nD) ∧
        ∀ (j k : Nat) (e : PE) (row : List ℝ) (v : ℝ) (d : Dir), c.N[j]? = some e → M[j]? = some row → row[k]? = some v →
          [Dir.r, Dir.s, Dir.t][k]? = some d → IsPartial (fun y => e.eval y) d (pointAt c.nD a) v := by
  obtain ⟨k1, k2⟩ := compiled_ok (K := ℝ) hc
  have hD : Derivatives c.nD c.N c.dN ∧ (c.blind = true → ∀ row ∈ c.dN, ∀ e ∈ row, ∀ x y : V3 ℝ, e.eval x = e.eval y) := by
    simp only [compiledTable, List.mem_cons, Prod.mk.injEq, List.not_mem_nil, or_false] at hc
    rcases hc with ⟨rfl, rfl⟩ | ⟨rfl, rfl⟩ | ⟨rfl, rfl⟩ | ⟨rfl, rfl⟩ | ⟨rfl, rfl⟩ | ⟨rfl, rfl⟩ | ⟨rfl, rfl⟩
    · exact ⟨C35_T3, fun _ row hrow e he => PE.eval_noVars ((show ∀ row ∈ clsT3.dN, ∀ e ∈ row, e.noVars = true by decide +kernel) row hrow e he)⟩
    · exact ⟨C35_T6, fun h => absurd h (by decide)⟩
    · exact ⟨C35_Q4, fun h => absurd h (by decide)⟩
    · exact ⟨C35_Q9, fun h => absurd h (by decide)⟩
    · exact ⟨C35_TET4, fun _ row hrow e he => PE.eval_noVars ((show ∀ row ∈ clsTET4.dN, ∀ e ∈ row, e.noVars = true by decide +kernel) row hrow e he)⟩
    · exact ⟨C35_H8, fun h => absurd h (by decide)⟩
    · exact ⟨C35_H27, fun h => absurd h (by decide)⟩
  have heq : shapeDerivs c (.mat false rows) = some (rows.map fun a => c.dN.map fun row => row.map fun e => e.eval (pointAt c.nD a)) := by
    rw [shapeDerivs]
    split
    · rename_i hb
      simp only [PArr.front, PArr.len, PArr.isInt, store_float]
      congr 1
      symm
      rw [List.eq_replicate_iff]
      refine ⟨by simp, fun M hM => ?_⟩
      obtain ⟨a, -, rfl⟩ := List.mem_map.1 hM
      exact List.map_congr_left fun row hrow => List.map_congr_left fun e he => hD.2 hb row hrow e he _ _
    · rw [PArr.front, points?_some k1 k2 hr hne, Option.map_some, List.map_map]
      simp only [PArr.isInt, store_float]
      rfl
  refine ⟨_, heq, by simp, fun i a M ha hM => ?_⟩
  rw [List.getElem?_map, ha, Option.map_some] at hM
  obtain rfl := Option.some.inj hM
  refine ⟨by simp [hD.1.len, k1.itp.len], fun row hrow => ?_, fun j k e row v d he hrow hv hd => ?_⟩
  · obtain ⟨row', h', rfl⟩ := List.mem_map.1 hrow
    rw [List.length_map]
    exact hD.1.width row' h'
  · rw [List.getElem?_map, Option.map_eq_some_iff] at hrow
    obtain ⟨row', h', rfl⟩ := hrow
    rw [List.getElem?_map, Option.map_eq_some_iff] at hv
    obtain ⟨D, hD', rfl⟩ := hv
    exact hD.1.deriv j k e D row' d he h' hD' hd _

/-- **C95** (derivatives): the classes with generated functions, whatever the type of the points. -/
theorem C95_derivs_generated_partial {inv : List (List ℚ) → Option (List (List ℚ))} (hinv : InvContract inv) {nD : Nat} {lc : List (V3 Int)}
    {base : List PE} {c : ShpClass} (h1 : 1 ≤ nD) (h3 : nD ≤ 3) (h : genCls inv nD lc base = some c) {rows : List (List ℝ)} (hr : ∀ a ∈ rows, a.length = nD)
    (hne : rows ≠ []) (int : Bool) :
    ∃ R, shapeDerivs c (.mat int rows) = some R ∧ R.length = rows.length ∧
      ∀ (i : Nat) (a : List ℝ) (M : List (List ℝ)), rows[i]? = some a → R[i]? = some M → M.length = lc.length ∧ (∀ row ∈ M, row.length = nD) ∧
        ∀ (j k : Nat) (e : PE) (row : List ℝ) (v : ℝ) (d : Dir), c.N[j]? = some e → M[j]? = some row → row[k]? = some v →
          [Dir.r, Dir.s, Dir.t][k]? = some d → IsPartial (fun y => e.eval y) d (pointAt nD a) v := by
  rw [genCls, Option.map_eq_some_iff] at h
  obtain ⟨⟨N, dN⟩, hg, rfl⟩ := h
  obtain ⟨-, ⟨C, -, -, hN⟩, hdN⟩ := generate_some hinv hg
  obtain ⟨d1, d2⟩ := C36_derivatives hinv hg
  have hw : ∀ row ∈ dN, row.length = nD := by
    rw [hdN]
    intro row hrow
    obtain ⟨f, -, rfl⟩ := List.mem_map.1 hrow
    simp only [List.length_map, List.length_take, List.length_cons, List.length_nil]
    omega
  have heq : shapeDerivs (⟨nD, false, false, false, N, dN, none, 3⟩ : ShpClass) (.mat int rows) =
      some (rows.map fun a => dN.map fun row => row.map fun e => e.eval (pointAt nD a)) := by
    rw [shapeDerivs, if_neg (by simp), PArr.front, ShpClass.points?, if_neg (by simp), if_neg (fun h => hne h.2),
      mapM_some (g := pointAt nD), Option.map_some, List.map_map]
    · simp only [ShpClass.store]
      rfl
    · intro a ha
      exact point?_some h1 h3 (by simp) (by simpa using hr a ha)
  refine ⟨_, heq, by simp, fun i a M ha hM => ?_⟩
  rw [List.getElem?_map, ha, Option.map_some] at hM
  obtain rfl := Option.some.inj hM
  refine ⟨?_, fun row hrow => ?_, fun j k e row v d he hrow hv hd => ?_⟩
  · rw [List.length_map, d1, hN]
    simp [nodesQ]
  · obtain ⟨row', h', rfl⟩ := List.mem_map.1 hrow
    rw [List.length_map]
    exact hw row' h'
  · rw [List.getElem?_map, Option.map_eq_some_iff] at hrow
    obtain ⟨row', h', rfl⟩ := hrow
    rw [List.getElem?_map, Option.map_eq_some_iff] at hv
    obtain ⟨D, hD', rfl⟩ := hv
    refine d2 j k e D row' d he h' hD' ?_ _
    have hk : k < nD := by
      rw [← hw row' (List.mem_of_getElem? h')]
      exact (List.getElem?_eq_some_iff.1 hD').1
    rw [List.getElem?_take, if_pos hk, hd]

/-- **C95** is false for derivatives at points in integers, nodes among them, and for a single point of a triangle, for which there are two answers. -/
theorem C95_derivs_false : shapeDerivs clsL2 (.vec true [(0 : ℚ)]) = some [[[0], [0]]] ∧
    shapeDerivs clsQ4 (.mat true [[(-1 : ℚ), -1]]) = some [[[0, 0], [0, 0], [0, 0], [0, 0]]] ∧
    shapeDerivs clsQ9 (.mat true [[(0 : ℚ), 0]]) = some [List.replicate 9 [0, 0]] ∧
    shapeDerivs clsH8 (.mat true [[(-1 : ℚ), -1, -1]]) = some [List.replicate 8 [0, 0, 0]] ∧
    shapeDerivs clsH27 (.mat true [[(0 : ℚ), 0, 0]]) = some [List.replicate 27 [0, 0, 0]] ∧
    ∀ (K : Type) [Field K] [LinearOrder K] [FloorRing K] (a b : K), ∃ M, shapeDerivs clsT3 (.vec false [a, b]) = some [M, M] := by
  refine ⟨?_, ?_, ?_, ?_, ?_, fun K _ _ _ a b => ⟨_, rfl⟩⟩
  all_goals decide +kernel

/-! ## matrices -/

/-- **C95** (matrices): for every point the matrix of the weights there, for any number of unknowns per node; none and zero stand for the default. -/
theorem C95_matrix_partial {K : Type} [Field K] [LinearOrder K] [FloorRing K] {c : ShpClass} {p : PArr K} {V : List (List K)} (hV : shapeValues c p = some V) (N : Option Nat) (hN : c.eye = none ∨ c.eye = some (if N.getD 0 = 0 then c.dof else N.getD 0)) :
    ∃ R, shapeMatrices c N p = some R ∧ R.length = V.length ∧ ∀ (i : Nat) (r : List K) (M : List (List K)), V[i]? = some r → R[i]? = some M →
      IsShapeMatrix (if N.getD 0 = 0 then c.dof else N.getD 0) r M := by
  have hd : c.dofs N = if N.getD 0 = 0 then c.dof else N.getD 0 := by
    match N with
    | none => rfl
    | some 0 => rfl
    | some (n + 1) => rfl
  have he : c.eye.getD (if N.getD 0 = 0 then c.dof else N.getD 0) = if N.getD 0 = 0 then c.dof else N.getD 0 := by
    rcases hN with h | h <;> rw [h] <;> rfl
  unfold shapeMatrices
  rw [hV, Option.bind_some, hd]
  simp only [he]
  generalize (if N.getD 0 = 0 then c.dof else N.getD 0) = n
  apply mapM_exists (P := fun _ r M => IsShapeMatrix n r M)
  intro i r hi
  have hl : r.length = c.N.length := by
    rw [shapeValues, Option.map_eq_some_iff] at hV
    obtain ⟨P, -, rfl⟩ := hV
    obtain ⟨x, -, rfl⟩ := List.mem_map.1 (List.mem_of_getElem? hi)
    simp
  obtain ⟨w, h1, h2⟩ := C72_matrix n r
  exact ⟨_, by rw [h1]; rfl, hl ▸ h2 w (List.Perm.refl _)⟩

/-- **C95** is false for matrices of hexahedra with another number of unknowns than three. -/
theorem C95_matrix_false {K : Type} [Field K] [LinearOrder K] [FloorRing K] {p : PArr K} {r : List K} {V : List (List K)} (hV : shapeValues clsH8 p = some (r :: V)) {n : Nat}
    (h0 : n ≠ 0) (h3 : n ≠ 3) : shapeMatrices clsH8 (some n) p = none := by
  have hl : r.length = 8 := by
    rw [shapeValues, Option.map_eq_some_iff] at hV
    obtain ⟨P, -, hP⟩ := hV
    have : r ∈ P.map fun x => clsH8.N.map fun e => clsH8.store p.isInt (e.eval x) := by rw [hP]; simp
    obtain ⟨x, -, rfl⟩ := List.mem_map.1 this
    rw [List.length_map]; rfl
  unfold shapeMatrices
  rw [hV, Option.bind_some]
  match n, h0 with
  | n + 1, _ =>
    rw [mapM_none (a := r) (by simp)]
    rw [show clsH8.eye.getD (clsH8.dofs (some (n + 1))) = 3 from rfl, show clsH8.dofs (some (n + 1)) = n + 1 from rfl, C72_H8_false h3 hl]
    rfl

example : shapeMatrices clsT3 (some 1) (.mat false [[(1 / 4 : ℚ), 1 / 4], [1, 0]]) = some [[[1/2, 1/4, 1/4]], [[0, 1, 0]]] := by decide +kernel

/-- Points with a third number, which is ignored, and a single point of a solid. -/
example : shapeValues clsQ4 (.mat false [[(1 / 2 : ℚ), 0, 7], [1, 1, 0]]) = some [[1/8, 3/8, 3/8, 1/8], [0, 0, 1, 0]] ∧
    (∀ a ∈ [[(1 / 2 : ℚ), 0, 7], [1, 1, 0]], Fits clsQ4 a) ∧
    shapeValues clsTET4 (.vec false [(1 / 2 : ℚ), 1 / 4, 0]) = some [[1/4, 1/2, 1/4, 0]] ∧
    shapeDerivs clsQ4 (.mat false [[(-1 : ℚ), -1]]) = some [[[-1/2, -1/2], [1/2, 0], [0, 0], [0, 1/2]]] := by
  refine ⟨by decide +kernel, by unfold Fits; decide +kernel, by decide +kernel, by decide +kernel⟩

end PM
