import Verif.GridClosed
import Verif.Cells
import Mathlib.Algebra.Order.Ring.Rat

/-!
# C16-C19, C20 (grids), C21: grids
-/

set_option linter.unusedSectionVars false
set_option linter.unusedSimpArgs false
set_option linter.unusedVariables false

namespace PM

section
variable {K : Type} [Field K] [CharZero K]

/-! ## C16 numbering, C17 positions -/

/-- **C16**, **C17** 3d grid: counts, ranges, use of all points, different nodes in a cell, and positions. -/
theorem C16_grid_3d (lX lY lZ : K) (nx ny nz Nx Ny Nz : Nat) (s0 s1 s2 : K) (start : Int)
    (h : 1 ≤ nx ∧ 1 ≤ ny ∧ 1 ≤ nz) (hN : 2 ≤ Nx ∧ 2 ≤ Ny ∧ 2 ≤ Nz) :
    IsGrid [uniAxis lX nx Nx s0, uniAxis lY ny Ny s1, uniAxis lZ nz Nz s2] start
      (rgrid3 lX lY lZ nx ny nz Nx Ny Nz s0 s1 s2 start).1 (rgrid3 lX lY lZ nx ny nz Nx Ny Nz s0 s1 s2 start).2 := by
  rw [rgrid3, rgrid3_closed lX lY lZ s0 s1 s2 start h hN (.refl _) (.refl _)]
  apply isGrid_closed
  simp [uniAxis]; omega

/-- **C16**, **C17** 2d grid. -/
theorem C16_grid_2d (lX lY : K) (nx ny Nx Ny : Nat) (s0 s1 : K) (start : Int)
    (h : 1 ≤ nx ∧ 1 ≤ ny) (hN : 2 ≤ Nx ∧ 2 ≤ Ny) :
    IsGrid [uniAxis lX nx Nx s0, uniAxis lY ny Ny s1] start
      (rgrid2 lX lY nx ny Nx Ny s0 s1 start).1 (rgrid2 lX lY nx ny Nx Ny s0 s1 start).2 := by
  rw [rgrid2, rgrid2_closed lX lY s0 s1 start h hN (.refl _) (.refl _)]
  apply isGrid_closed
  simp [uniAxis]; omega

/-- **C16**, **C17** the loops of the 1d branch of `rgridMT`, given numbers. -/
theorem C16_grid_1d (lX : K) (nx Nx : Nat) (s0 : K) (start : Int) (h : 1 ≤ nx) (hN : 2 ≤ Nx) :
    IsGrid [uniAxis lX nx Nx s0] start (rgrid1 lX nx Nx s0 start).1 (rgrid1 lX nx Nx s0 start).2 := by
  rw [rgrid1, rgrid1_closed lX s0 start h hN (.refl _) (.refl _)]
  apply isGrid_closed
  simp [uniAxis]; omega

theorem range'_flatMap {β : Type} (n : Nat) (f : Nat → List β) :
    (List.range' 1 n).flatMap f = (List.range n).flatMap fun i => f (i + 1) := by
  rw [List.range'_eq_map_range, List.flatMap_map]
  simp [Nat.add_comm]

theorem range'_map {β : Type} (n : Nat) (f : Nat → β) :
    (List.range' 1 n).map f = (List.range n).flatMap fun i => [f (i + 1)] := by
  rw [List.range'_eq_map_range, List.map_map]
  rw [← List.map_eq_flatMap]
  simp [Function.comp_def, Nat.add_comm]

/-- **C16**, **C20** the sequential generator `_rgridST` returns the same arrays, 3d. -/
theorem C16_sequential_3d (lX lY lZ : K) (nx ny nz Nx Ny Nz : Nat) (s0 s1 s2 : K) (start : Int)
    (h : 1 ≤ nx ∧ 1 ≤ ny ∧ 1 ≤ nz) (hN : 2 ≤ Nx ∧ 2 ≤ Ny ∧ 2 ≤ Nz) :
    rgridST3 lX lY lZ nx ny nz Nx Ny Nz s0 s1 s2 start = rgrid3 lX lY lZ nx ny nz Nx Ny Nz s0 s1 s2 start := by
  have e := rgrid3_closed lX lY lZ s0 s1 s2 start h hN (.refl _) (.refl _)
  have e1 := congrArg Prod.fst e
  rw [rgrid3, e]
  simp only [rgrid3With] at e1
  rw [rgridST3, e1, ← withStart_succ]
  congr 2
  simp only [gridTopo, map_gridL]
  simp only [range'_flatMap, range'_map, gridL, List.map_cons, List.map_nil, node3_eq]
  refine List.flatMap_congr fun _ _ => ?_
  refine List.flatMap_congr fun _ _ => ?_
  refine List.flatMap_congr fun _ _ => ?_
  congr 1
  refine List.flatMap_congr fun _ _ => ?_
  refine List.flatMap_congr fun _ _ => ?_
  refine List.flatMap_congr fun _ _ => ?_
  simp only [uniAxis, lexNo, gridNo, Axis.no, Axis.pts, axPts, List.prod_cons, List.prod_nil]
  congr 1
  ring

/-- **C16**, **C20** the sequential generator `_rgridST` returns the same arrays, 2d. -/
theorem C16_sequential_2d (lX lY : K) (nx ny Nx Ny : Nat) (s0 s1 : K) (start : Int)
    (h : 1 ≤ nx ∧ 1 ≤ ny) (hN : 2 ≤ Nx ∧ 2 ≤ Ny) :
    rgridST2 lX lY nx ny Nx Ny s0 s1 start = rgrid2 lX lY nx ny Nx Ny s0 s1 start := by
  have e := rgrid2_closed lX lY s0 s1 start h hN (.refl _) (.refl _)
  have e1 := congrArg Prod.fst e
  rw [rgrid2, e]
  simp only [rgrid2With] at e1
  rw [rgridST2, e1, ← withStart_succ]
  congr 2
  simp only [gridTopo, map_gridL]
  simp only [range'_flatMap, range'_map, gridL, List.map_cons, List.map_nil, node2_eq]
  refine List.flatMap_congr fun _ _ => ?_
  refine List.flatMap_congr fun _ _ => ?_
  congr 1
  refine List.flatMap_congr fun _ _ => ?_
  refine List.flatMap_congr fun _ _ => ?_
  simp only [uniAxis, lexNo, gridNo, Axis.no, Axis.pts, axPts, List.prod_cons, List.prod_nil]
  congr 1
  ring

/-- **C16** `grid` with sizes and a tuple of nodes per cell is this generator, 2d. -/
theorem C16_grid_call_2d (lX lY : K) (nx ny Nx Ny : Nat) (s0 s1 : K) (start : Int) :
    grid { size := some [lX, lY], shape := some [nx, ny], shift := some [s0, s1], start := start } (.tuple [Nx, Ny]) none =
      some (rgrid2 lX lY nx ny Nx Ny s0 s1 start) := rfl

/-- **C16** likewise in 3d. -/
theorem C16_grid_call_3d (lX lY lZ : K) (nx ny nz Nx Ny Nz : Nat) (s0 s1 s2 : K) (start : Int) :
    grid { size := some [lX, lY, lZ], shape := some [nx, ny, nz], shift := some [s0, s1, s2], start := start }
      (.tuple [Nx, Ny, Nz]) none = some (rgrid3 lX lY lZ nx ny nz Nx Ny Nz s0 s1 s2 start) := rfl

/-- **C16** fails for the documented default of `eshape`: the array made for `None` does not pass
`assert isinstance(eshape, tuple)`, so that `grid(size=..., shape=...)` always raises. -/
theorem C16_default_eshape_false (a : GridArgs K) (hb : a.bins = none) (path : Option (List Nat)) :
    grid a .absent path = none := by
  unfold grid
  cases h : a.nDime with
  | none => rfl
  | some n => simp [gridCore, gridRaw, hb, h]

/-- **C16** fails in one dimension: `grid` always raises. -/
theorem C16_one_dimension_false (a : GridArgs K) (l : K) (hs : a.size = some [l]) (hb : a.bins = none)
    (eshape : List Nat) (path : Option (List Nat)) : grid a (.tuple eshape) path = none := by
  unfold grid
  simp [gridCore, gridRaw, hb, GridArgs.nDime, hs]

/-- **C17** node `(m, q, p)` of cell `(i, j, k)` lies at `shift + ((i + m / (N - 1)) * L / n, ...)`. -/
theorem C17_position_3d (lX lY lZ : K) (nx ny nz Nx Ny Nz : Nat) (s0 s1 s2 : K) (start : Int)
    (h : 1 ≤ nx ∧ 1 ≤ ny ∧ 1 ≤ nz) (hN : 2 ≤ Nx ∧ 2 ≤ Ny ∧ 2 ≤ Nz) (i j k m q p : Nat)
    (hi : i < nx) (hj : j < ny) (hk : k < nz) (hm : m < Nx) (hq : q < Ny) (hp : p < Nz) :
    ∃ n : Nat, nodeAt (rgrid3 lX lY lZ nx ny nz Nx Ny Nz s0 s1 s2 start).2 ((i * ny + j) * nz + k)
        ((m * Ny + q) * Nz + p) = some ((n : Int) + start) ∧
      (rgrid3 lX lY lZ nx ny nz Nx Ny Nz s0 s1 s2 start).1[n]? =
        some [s0 + ((i : K) + m / ((Nx : K) - 1)) * lX / nx, s1 + ((j : K) + q / ((Ny : K) - 1)) * lY / ny,
          s2 + ((k : K) + p / ((Nz : K) - 1)) * lZ / nz] := by
  obtain ⟨n, h1, h2⟩ := (C16_grid_3d lX lY lZ nx ny nz Nx Ny Nz s0 s1 s2 start h hN).place [i, j, k] [m, q, p]
    ⟨hi, hj, hk, trivial⟩ ⟨hm, hq, hp, trivial⟩
  refine ⟨n, ?_, ?_⟩
  · rw [← h1]
    congr 1 <;> simp [lexNo, uniAxis] <;> ring
  · rw [h2]
    have c : ∀ N : Nat, 2 ≤ N → ((N - 1 : Nat) : K) = (N : K) - 1 := fun N hN => by
      rw [Nat.cast_sub (by omega)]; simp
    simp only [gridPos, uni_pos, c _ hN.1, c _ hN.2.1, c _ hN.2.2, Option.some.injEq, List.cons.injEq, and_true]
    refine ⟨?_, ?_, ?_⟩ <;> ring

/-- **C17** the same in 2d. -/
theorem C17_position_2d (lX lY : K) (nx ny Nx Ny : Nat) (s0 s1 : K) (start : Int)
    (h : 1 ≤ nx ∧ 1 ≤ ny) (hN : 2 ≤ Nx ∧ 2 ≤ Ny) (i j m q : Nat)
    (hi : i < nx) (hj : j < ny) (hm : m < Nx) (hq : q < Ny) :
    ∃ n : Nat, nodeAt (rgrid2 lX lY nx ny Nx Ny s0 s1 start).2 (i * ny + j) (m * Ny + q) = some ((n : Int) + start) ∧
      (rgrid2 lX lY nx ny Nx Ny s0 s1 start).1[n]? =
        some [s0 + ((i : K) + m / ((Nx : K) - 1)) * lX / nx, s1 + ((j : K) + q / ((Ny : K) - 1)) * lY / ny] := by
  obtain ⟨n, h1, h2⟩ := (C16_grid_2d lX lY nx ny Nx Ny s0 s1 start h hN).place [i, j] [m, q]
    ⟨hi, hj, trivial⟩ ⟨hm, hq, trivial⟩
  refine ⟨n, ?_, ?_⟩
  · rw [← h1]
    congr 1 <;> simp [lexNo, uniAxis]
  · rw [h2]
    have c : ∀ N : Nat, 2 ≤ N → ((N - 1 : Nat) : K) = (N : K) - 1 := fun N hN => by
      rw [Nat.cast_sub (by omega)]; simp
    simp only [gridPos, uni_pos, c _ hN.1, c _ hN.2, Option.some.injEq, List.cons.injEq, and_true]
    refine ⟨?_, ?_⟩ <;> ring

/-- The example meets the hypotheses; 2 x 1 x 1 cells with 3 x 2 x 2 nodes. -/
example : rgrid2 (4 : ℚ) 3 2 1 3 2 0 10 5 =
    ([[0, 10], [0, 13], [1, 10], [1, 13], [2, 10], [2, 13], [3, 10], [3, 13], [4, 10], [4, 13]],
     [[5, 6, 7, 8, 9, 10], [9, 10, 11, 12, 13, 14]]) := by decide +kernel

/-! ## C20 schedules -/

/-- **C20** every order of the assignments of the parallel loops of `rgridMT` gives the result of the sequential
loops, 3d. -/
theorem C20_grid_schedule_3d (lX lY lZ : K) (nx ny nz Nx Ny Nz : Nat) (s0 s1 s2 : K) (start : Int)
    (h : 1 ≤ nx ∧ 1 ≤ ny ∧ 1 ≤ nz) (hN : 2 ≤ Nx ∧ 2 ≤ Ny ∧ 2 ≤ Nz) (wc : List ((Nat × Nat) × K))
    (wt : List ((Nat × Nat) × Nat)) (hc : (rgridCoordW3 lX lY lZ nx ny nz Nx Ny Nz s0 s1 s2).Perm wc)
    (ht : (rgridTopoW3 nx ny nz Nx Ny Nz).Perm wt) :
    rgrid3With nx ny nz Nx Ny Nz start wc wt = rgridST3 lX lY lZ nx ny nz Nx Ny Nz s0 s1 s2 start := by
  rw [C16_sequential_3d _ _ _ _ _ _ _ _ _ _ _ _ _ h hN, rgrid3, rgrid3_closed lX lY lZ s0 s1 s2 start h hN hc ht,
    rgrid3_closed lX lY lZ s0 s1 s2 start h hN (.refl _) (.refl _)]

/-- **C20** 2d. -/
theorem C20_grid_schedule_2d (lX lY : K) (nx ny Nx Ny : Nat) (s0 s1 : K) (start : Int)
    (h : 1 ≤ nx ∧ 1 ≤ ny) (hN : 2 ≤ Nx ∧ 2 ≤ Ny) (wc : List ((Nat × Nat) × K)) (wt : List ((Nat × Nat) × Nat))
    (hc : (rgridCoordW2 lX lY nx ny Nx Ny s0 s1).Perm wc) (ht : (rgridTopoW2 nx ny Nx Ny).Perm wt) :
    rgrid2With nx ny Nx Ny start wc wt = rgridST2 lX lY nx ny Nx Ny s0 s1 start := by
  rw [C16_sequential_2d _ _ _ _ _ _ _ _ _ h hN, rgrid2, rgrid2_closed lX lY s0 s1 start h hN hc ht,
    rgrid2_closed lX lY s0 s1 start h hN (.refl _) (.refl _)]

/-- **C20** bins, 2d. -/
theorem C20_bins_schedule_2d (bx bY : List K) (Nx Ny : Nat) (s0 s1 : K) (start : Int)
    (h : 2 ≤ bx.length ∧ 2 ≤ bY.length) (hN : 2 ≤ Nx ∧ 2 ≤ Ny) (wc : List ((Nat × Nat) × K))
    (wt : List ((Nat × Nat) × Nat)) (hc : (binsCoordW2 bx bY Nx Ny s0 s1).Perm wc)
    (ht : (binsTopoW2 (bx.length - 1) (bY.length - 1) Nx Ny).Perm wt) :
    bins2With (bx.length - 1) (bY.length - 1) Nx Ny start wc wt = gridBins2 bx bY Nx Ny s0 s1 start := by
  rw [gridBins2, bins2_closed s0 s1 start h hN hc ht, bins2_closed s0 s1 start h hN (.refl _) (.refl _)]

/-- **C20** bins, 3d. -/
theorem C20_bins_schedule_3d (bx bY bz : List K) (Nx Ny Nz : Nat) (s0 s1 s2 : K) (start : Int)
    (h : 2 ≤ bx.length ∧ 2 ≤ bY.length ∧ 2 ≤ bz.length) (hN : 2 ≤ Nx ∧ 2 ≤ Ny ∧ 2 ≤ Nz)
    (wc : List ((Nat × Nat) × K)) (wt : List ((Nat × Nat) × Nat))
    (hc : (binsCoordW3 bx bY bz Nx Ny Nz s0 s1 s2).Perm wc)
    (ht : (binsTopoW3 (bx.length - 1) (bY.length - 1) (bz.length - 1) Nx Ny Nz).Perm wt) :
    bins3With (bx.length - 1) (bY.length - 1) (bz.length - 1) Nx Ny Nz start wc wt =
      gridBins3 bx bY bz Nx Ny Nz s0 s1 s2 start := by
  rw [gridBins3, bins3_closed s0 s1 s2 start h hN hc ht, bins3_closed s0 s1 s2 start h hN (.refl _) (.refl _)]

/-! ## C21 bins -/

/-- **C21** 2d: the tensor product of the values `shift + bins`. -/
theorem C21_bins_2d (bx bY : List K) (Nx Ny : Nat) (s0 s1 : K) (start : Int)
    (h : 2 ≤ bx.length ∧ 2 ≤ bY.length) (hN : 2 ≤ Nx ∧ 2 ≤ Ny) :
    IsGrid [binAxis bx Nx s0, binAxis bY Ny s1] start (gridBins2 bx bY Nx Ny s0 s1 start).1
      (gridBins2 bx bY Nx Ny s0 s1 start).2 := by
  rw [gridBins2, bins2_closed s0 s1 start h hN (.refl _) (.refl _)]
  apply isGrid_closed
  simp [binAxis]; omega

/-- **C21** 3d. -/
theorem C21_bins_3d (bx bY bz : List K) (Nx Ny Nz : Nat) (s0 s1 s2 : K) (start : Int)
    (h : 2 ≤ bx.length ∧ 2 ≤ bY.length ∧ 2 ≤ bz.length) (hN : 2 ≤ Nx ∧ 2 ≤ Ny ∧ 2 ≤ Nz) :
    IsGrid [binAxis bx Nx s0, binAxis bY Ny s1, binAxis bz Nz s2] start
      (gridBins3 bx bY bz Nx Ny Nz s0 s1 s2 start).1 (gridBins3 bx bY bz Nx Ny Nz s0 s1 s2 start).2 := by
  rw [gridBins3, bins3_closed s0 s1 s2 start h hN (.refl _) (.refl _)]
  apply isGrid_closed
  simp [binAxis]; omega

example : gridBins2 [(0 : ℚ), 1, 5] [2, 3] 2 2 0 0 0 =
    ([[0, 2], [0, 3], [1, 2], [1, 3], [5, 2], [5, 3]], [[0, 1, 2, 3], [2, 3, 4, 5]]) := by decide +kernel

/-- **C21** cell `(i, j)` of a grid with two nodes per direction is the box between consecutive values: its four
nodes are the corners. -/
theorem C21_bins_box (bx bY : List K) (s0 s1 : K) (start : Int) (h : 2 ≤ bx.length ∧ 2 ≤ bY.length)
    (i j m q : Nat) (hi : i + 1 < bx.length) (hj : j + 1 < bY.length) (hm : m < 2) (hq : q < 2) :
    ∃ n : Nat, nodeAt (gridBins2 bx bY 2 2 s0 s1 start).2 (i * (bY.length - 1) + j) (m * 2 + q) =
        some ((n : Int) + start) ∧
      (gridBins2 bx bY 2 2 s0 s1 start).1[n]? = some [s0 + bx.getD (i + m) 0, s1 + bY.getD (j + q) 0] := by
  obtain ⟨n, h1, h2⟩ := (C21_bins_2d bx bY 2 2 s0 s1 start h ⟨by omega, by omega⟩).place [i, j] [m, q]
    ⟨by simp [binAxis]; omega, by simp [binAxis]; omega, trivial⟩ ⟨hm, hq, trivial⟩
  refine ⟨n, ?_, ?_⟩
  · rw [← h1]; congr 1 <;> simp [lexNo, binAxis]
  · rw [h2]
    have e : ∀ (b : List K) (s : K) (i m : Nat), m < 2 → (binAxis b 2 s).pos i m = s + b.getD (i + m) 0 := by
      intro b s i m hm
      rw [bin_pos]
      match m, hm with
      | 0, _ => simp
      | 1, _ => simp
    simp [gridPos, e _ _ _ _ hm, e _ _ _ _ hq]

end

/-! ## distinct points and tiling -/

section
variable {K : Type} [Field K] [LinearOrder K] [IsStrictOrderedRing K]

/-- The ends of the intervals increase. -/
def Axis.Inc (a : Axis K) : Prop := ∀ i, i < a.n → a.b i < a.b (i + 1)

theorem Axis.pos_lt {a : Axis K} (h : a.Inc) (hN : 2 ≤ a.N) {i m m' : Nat} (hi : i < a.n) (hm : m < m') :
    a.pos i m < a.pos i m' := by
  have h0 : (0 : K) < ((a.N - 1 : Nat) : K) := by exact_mod_cast (by omega : 0 < a.N - 1)
  have h1 := h i hi
  have h2 : (m : K) < m' := by exact_mod_cast hm
  unfold Axis.pos
  have := div_lt_div_of_pos_right h2 h0
  have := mul_lt_mul_of_pos_right this (sub_pos.2 h1)
  linarith

theorem Axis.val_succ {a : Axis K} (h : a.Inc) (hn : 1 ≤ a.n) (hN : 2 ≤ a.N) {x : Nat} (hx : x + 1 < a.pts) :
    a.val x < a.val (x + 1) := by
  have h1 : x < (a.N - 1) * a.n := by unfold Axis.pts at hx; rw [Nat.mul_comm]; omega
  obtain ⟨i, k, hi, hk, rfl⟩ := mixed_radix_exists h1
  have e1 : i * (a.N - 1) + k = a.no i k := by rw [Axis.no, Nat.mul_comm]
  have e2 : i * (a.N - 1) + k + 1 = a.no i (k + 1) := by rw [Axis.no, Nat.mul_comm]; omega
  rw [e2, e1, Axis.val_no hN (by omega), Axis.val_no hN (by omega)]
  exact Axis.pos_lt h hN hi (by omega)

theorem Axis.val_lt {a : Axis K} (h : a.Inc) (hn : 1 ≤ a.n) (hN : 2 ≤ a.N) {x y : Nat} (hxy : x < y)
    (hy : y < a.pts) : a.val x < a.val y := by
  induction y with
  | zero => omega
  | succ y ih =>
    rcases Nat.lt_or_ge x y with h1 | h1
    · exact (ih h1 (by omega)).trans (Axis.val_succ h hn hN hy)
    · have : x = y := by omega
      subst this; exact Axis.val_succ h hn hN hy

theorem gridVal_inj {ax : List (Axis K)} (hax : ∀ a ∈ ax, 1 ≤ a.n ∧ 2 ≤ a.N) (hinc : ∀ a ∈ ax, a.Inc)
    {xs ys : List Nat} (hx : Within xs (ax.map Axis.pts)) (hy : Within ys (ax.map Axis.pts))
    (h : gridVal ax xs = gridVal ax ys) : xs = ys := by
  induction ax generalizing xs ys with
  | nil => cases xs <;> cases ys <;> simp [Within] at *
  | cons a ax ih =>
    cases xs with
    | nil => simp [Within] at hx
    | cons x xs =>
      cases ys with
      | nil => simp [Within] at hy
      | cons y ys =>
        simp only [gridVal, List.cons.injEq] at h
        obtain ⟨hn, hN⟩ := hax a List.mem_cons_self
        have h1 : x = y := by
          rcases Nat.lt_trichotomy x y with g | g | g
          · exact absurd h.1 (Axis.val_lt (hinc a List.mem_cons_self) hn hN g hy.1).ne
          · exact g
          · exact absurd h.1.symm (Axis.val_lt (hinc a List.mem_cons_self) hn hN g hx.1).ne
        rw [h1, ih (fun b hb => hax b (List.mem_cons_of_mem _ hb)) (fun b hb => hinc b (List.mem_cons_of_mem _ hb))
          hx.2 hy.2 h.2]

theorem gridCoords_nodup {ax : List (Axis K)} (hax : ∀ a ∈ ax, 1 ≤ a.n ∧ 2 ≤ a.N) (hinc : ∀ a ∈ ax, a.Inc) :
    (gridCoords ax).Nodup := gridL_nodup fun xs ys hx hy h => gridVal_inj hax hinc hx hy h

theorem uniAxis_inc {l : K} {n N : Nat} {s : K} (hl : 0 < l) (hn : 1 ≤ n) : (uniAxis l n N s).Inc := by
  intro i _
  have h0 : (0 : K) < n := by exact_mod_cast hn
  have : 0 < l / n := div_pos hl h0
  simp only [uniAxis]
  push_cast
  linarith

theorem binAxis_inc {b : List K} {N : Nat} {s : K} (hb : b.Pairwise (· < ·)) : (binAxis b N s).Inc := by
  intro i hi
  simp only [binAxis] at hi ⊢
  have h1 : i + 1 < b.length := by omega
  have := List.pairwise_iff_getElem.1 hb i (i + 1) (by omega) h1 (by omega)
  simp only [List.getD_eq_getElem?_getD, List.getElem?_eq_getElem h1,
    List.getElem?_eq_getElem (by omega : i < b.length), Option.getD_some]
  linarith

/-- **C17** no position occurs twice among the points of a grid: cells share nodes where they touch. -/
theorem C17_points_distinct_3d (lX lY lZ : K) (nx ny nz Nx Ny Nz : Nat) (s0 s1 s2 : K) (start : Int)
    (h : 1 ≤ nx ∧ 1 ≤ ny ∧ 1 ≤ nz) (hN : 2 ≤ Nx ∧ 2 ≤ Ny ∧ 2 ≤ Nz) (hl : 0 < lX ∧ 0 < lY ∧ 0 < lZ) :
    (rgrid3 lX lY lZ nx ny nz Nx Ny Nz s0 s1 s2 start).1.Nodup := by
  rw [rgrid3, rgrid3_closed lX lY lZ s0 s1 s2 start h hN (.refl _) (.refl _)]
  apply gridCoords_nodup
  · simp [uniAxis]; omega
  · simp only [List.forall_mem_cons, List.not_mem_nil, false_implies, implies_true, and_true]
    exact ⟨uniAxis_inc hl.1 h.1, uniAxis_inc hl.2.1 h.2.1, uniAxis_inc hl.2.2 h.2.2⟩

/-- **C17** 2d. -/
theorem C17_points_distinct_2d (lX lY : K) (nx ny Nx Ny : Nat) (s0 s1 : K) (start : Int)
    (h : 1 ≤ nx ∧ 1 ≤ ny) (hN : 2 ≤ Nx ∧ 2 ≤ Ny) (hl : 0 < lX ∧ 0 < lY) :
    (rgrid2 lX lY nx ny Nx Ny s0 s1 start).1.Nodup := by
  rw [rgrid2, rgrid2_closed lX lY s0 s1 start h hN (.refl _) (.refl _)]
  apply gridCoords_nodup
  · simp [uniAxis]; omega
  · simp only [List.forall_mem_cons, List.not_mem_nil, false_implies, implies_true, and_true]
    exact ⟨uniAxis_inc hl.1 h.1, uniAxis_inc hl.2 h.2⟩

/-- **C21** for increasing bins, each point of the tensor product is there once, 2d. -/
theorem C21_points_distinct_2d (bx bY : List K) (Nx Ny : Nat) (s0 s1 : K) (start : Int)
    (h : 2 ≤ bx.length ∧ 2 ≤ bY.length) (hN : 2 ≤ Nx ∧ 2 ≤ Ny) (hx : bx.Pairwise (· < ·)) (hy : bY.Pairwise (· < ·)) :
    (gridBins2 bx bY Nx Ny s0 s1 start).1.Nodup := by
  rw [gridBins2, bins2_closed s0 s1 start h hN (.refl _) (.refl _)]
  apply gridCoords_nodup
  · simp [binAxis]; omega
  · simp only [List.forall_mem_cons, List.not_mem_nil, false_implies, implies_true, and_true]
    exact ⟨binAxis_inc hx, binAxis_inc hy⟩

/-- **C21** 3d. -/
theorem C21_points_distinct_3d (bx bY bz : List K) (Nx Ny Nz : Nat) (s0 s1 s2 : K) (start : Int)
    (h : 2 ≤ bx.length ∧ 2 ≤ bY.length ∧ 2 ≤ bz.length) (hN : 2 ≤ Nx ∧ 2 ≤ Ny ∧ 2 ≤ Nz)
    (hx : bx.Pairwise (· < ·)) (hy : bY.Pairwise (· < ·)) (hz : bz.Pairwise (· < ·)) :
    (gridBins3 bx bY bz Nx Ny Nz s0 s1 s2 start).1.Nodup := by
  rw [gridBins3, bins3_closed s0 s1 s2 start h hN (.refl _) (.refl _)]
  apply gridCoords_nodup
  · simp [binAxis]; omega
  · simp only [List.forall_mem_cons, List.not_mem_nil, false_implies, implies_true, and_true]
    exact ⟨binAxis_inc hx, binAxis_inc hy, binAxis_inc hz⟩

/-! ### tiling -/

/-- `x` is in the closed box with corners `lo` and `hi`. -/
def InBox : List K → List K → List K → Prop
  | [], [], [] => True
  | l :: lo, x :: xs, h :: hi => (l ≤ x ∧ x ≤ h) ∧ InBox lo xs hi
  | _, _, _ => False

/-- `x` is in the open box with corners `lo` and `hi`. -/
def InOpenBox : List K → List K → List K → Prop
  | [], [], [] => True
  | l :: lo, x :: xs, h :: hi => (l < x ∧ x < h) ∧ InOpenBox lo xs hi
  | _, _, _ => False

/-- First and last node of cell `c` have coordinates `lo` and `hi`. -/
def CellCorners (start : Int) (C : List (List K)) (T : List (List Int)) (c : Nat) (lo hi : List K) : Prop :=
  ∃ r, T[c]? = some r ∧ ∃ n m : Nat, r.head? = some ((n : Int) + start) ∧ C[n]? = some lo ∧
    r.getLast? = some ((m : Int) + start) ∧ C[m]? = some hi

theorem axis_cover {a : Axis K} {x : K} (h0 : a.b 0 ≤ x) (hn : 1 ≤ a.n) (h1 : x ≤ a.b a.n) :
    ∃ i, i < a.n ∧ a.b i ≤ x ∧ x ≤ a.b (i + 1) := by
  have : ∀ k, 1 ≤ k → x ≤ a.b k → ∃ i, i < k ∧ a.b i ≤ x ∧ x ≤ a.b (i + 1) := by
    intro k hk hx
    induction k with
    | zero => omega
    | succ k ih =>
      rcases le_total (a.b k) x with h | h
      · exact ⟨k, by omega, h, hx⟩
      · rcases Nat.eq_zero_or_pos k with rfl | hk0
        · exact ⟨0, by omega, h0, hx⟩
        · obtain ⟨i, hi, h2⟩ := ih hk0 h
          exact ⟨i, by omega, h2⟩
  exact this a.n hn h1

theorem axis_mono {a : Axis K} (h : a.Inc) {i j : Nat} (hij : i ≤ j) (hj : j ≤ a.n) : a.b i ≤ a.b j := by
  induction j with
  | zero => have : i = 0 := by omega
            subst this; exact le_refl _
  | succ j ih =>
    rcases Nat.lt_or_ge j i with h1 | h1
    · have : i = j + 1 := by omega
      subst this; exact le_refl _
    · exact (ih h1 (by omega)).trans (h j (by omega)).le

theorem axis_unique {a : Axis K} (h : a.Inc) {i j : Nat} (hi : i < a.n) (hj : j < a.n) {x : K}
    (h1 : a.b i < x ∧ x < a.b (i + 1)) (h2 : a.b j ≤ x ∧ x ≤ a.b (j + 1)) : i = j := by
  rcases Nat.lt_trichotomy i j with g | g | g
  · have := axis_mono h (by omega : i + 1 ≤ j) (by omega)
    linarith [h1.2, h2.1]
  · exact g
  · have := axis_mono h (by omega : j + 1 ≤ i) (by omega)
    linarith [h1.1, h2.2]

theorem lexNo_zero (ds : List Nat) : lexNo (ds.map fun _ => 0) ds = 0 := by
  induction ds with
  | nil => rfl
  | cons d ds ih => rw [List.map_cons, lexNo, ih]; simp

theorem lexNo_last {ds : List Nat} (h : ∀ d ∈ ds, 1 ≤ d) : lexNo (ds.map (· - 1)) ds + 1 = ds.prod := by
  induction ds with
  | nil => rfl
  | cons d ds ih =>
    rw [List.map_cons, lexNo, List.prod_cons, Nat.add_assoc, ih fun e he => h e (List.mem_cons_of_mem _ he)]
    obtain ⟨k, rfl⟩ : ∃ k, d = k + 1 := ⟨d - 1, by have := h d List.mem_cons_self; omega⟩
    simp [Nat.succ_mul]

theorem within_zero {ds : List Nat} (h : ∀ d ∈ ds, 1 ≤ d) : Within (ds.map fun _ => 0) ds := by
  induction ds with
  | nil => trivial
  | cons d ds ih => exact ⟨h d List.mem_cons_self, ih fun e he => h e (List.mem_cons_of_mem _ he)⟩

theorem within_last {ds : List Nat} (h : ∀ d ∈ ds, 1 ≤ d) : Within (ds.map (· - 1)) ds := by
  induction ds with
  | nil => trivial
  | cons d ds ih =>
    have := h d List.mem_cons_self
    exact ⟨by show d - 1 < d; omega, ih fun e he => h e (List.mem_cons_of_mem _ he)⟩

theorem pos_zero (a : Axis K) (i : Nat) : a.pos i 0 = a.b i := by simp [Axis.pos]

theorem pos_last {a : Axis K} (hN : 2 ≤ a.N) (i : Nat) : a.pos i (a.N - 1) = a.b (i + 1) := by
  have h0 : ((a.N - 1 : Nat) : K) ≠ 0 := by exact_mod_cast (by omega : a.N - 1 ≠ 0)
  rw [Axis.pos, div_self h0]; ring

/-- Lower and upper corner of cell `is`. -/
def cellLo : List (Axis K) → List Nat → List K
  | a :: ax, i :: is => a.b i :: cellLo ax is
  | _, _ => []

theorem gridPos_zero {ax : List (Axis K)} {is : List Nat} (h : Within is (ax.map fun a => a.n)) :
    gridPos ax is ((ax.map fun a => a.N).map fun _ => 0) = cellLo ax is := by
  induction ax generalizing is with
  | nil => cases is <;> rfl
  | cons a ax ih =>
    cases is with
    | nil => simp [Within] at h
    | cons i is =>
      have := ih h.2
      simp only [List.map_cons, gridPos, cellLo, pos_zero]
      rw [← this]

theorem gridPos_last {ax : List (Axis K)} (hN : ∀ a ∈ ax, 2 ≤ a.N) {is : List Nat}
    (h : Within is (ax.map fun a => a.n)) :
    gridPos ax is ((ax.map fun a => a.N).map (· - 1)) = cellLo ax (is.map (· + 1)) := by
  induction ax generalizing is with
  | nil => cases is <;> rfl
  | cons a ax ih =>
    cases is with
    | nil => simp [Within] at h
    | cons i is =>
      have := ih (fun b hb => hN b (List.mem_cons_of_mem _ hb)) h.2
      simp only [List.map_cons, gridPos, cellLo, pos_last (hN a List.mem_cons_self)]
      rw [← this]

theorem IsGrid.corners {ax : List (Axis K)} {start : Int} {C : List (List K)} {T : List (List Int)}
    (hg : IsGrid ax start C T) (hax : ∀ a ∈ ax, 1 ≤ a.n ∧ 2 ≤ a.N) {is : List Nat}
    (h : Within is (ax.map fun a => a.n)) :
    CellCorners start C T (lexNo is (ax.map fun a => a.n)) (cellLo ax is) (cellLo ax (is.map (· + 1))) := by
  have h1 : ∀ d ∈ ax.map (fun a => a.N), 1 ≤ d := by
    intro d hd
    obtain ⟨a, ha, rfl⟩ := List.mem_map.1 hd
    have := (hax a ha).2; omega
  obtain ⟨n, e1, e2⟩ := hg.place is _ h (within_zero h1)
  obtain ⟨m, e3, e4⟩ := hg.place is _ h (within_last h1)
  rw [lexNo_zero] at e1
  have hl := lexNo_last h1
  rw [gridPos_zero h] at e2
  rw [gridPos_last (fun a ha => (hax a ha).2) h] at e4
  unfold nodeAt at e1 e3
  cases hr : T[lexNo is (ax.map fun a => a.n)]? with
  | none => rw [hr] at e1; simp at e1
  | some r =>
    rw [hr] at e1 e3
    simp only [Option.bind_eq_bind, Option.bind_some] at e1 e3
    refine ⟨r, hr, n, m, by rw [List.head?_eq_getElem?]; exact e1, e2, ?_, e4⟩
    rw [List.getLast?_eq_getElem?, hg.width r (List.mem_of_getElem? hr), ← e3]
    congr 1
    omega

theorem corners_unique {start : Int} {C : List (List K)} {T : List (List Int)} {c : Nat} {lo hi lo' hi' : List K}
    (h : CellCorners start C T c lo hi) (h' : CellCorners start C T c lo' hi') : lo = lo' ∧ hi = hi' := by
  obtain ⟨r, hr, n, m, a1, a2, a3, a4⟩ := h
  obtain ⟨r', hr', n', m', b1, b2, b3, b4⟩ := h'
  rw [hr] at hr'
  obtain rfl := Option.some.inj hr'
  rw [a1] at b1
  rw [a3] at b3
  have e1 : n = n' := by have := Option.some.inj b1; omega
  have e2 : m = m' := by have := Option.some.inj b3; omega
  subst e1 e2
  rw [a2] at b2
  rw [a4] at b4
  exact ⟨Option.some.inj b2, Option.some.inj b4⟩

theorem box_cover {ax : List (Axis K)} (hax : ∀ a ∈ ax, 1 ≤ a.n) {x : List K}
    (hx : InBox (ax.map fun a => a.b 0) x (ax.map fun a => a.b a.n)) :
    ∃ is, Within is (ax.map fun a => a.n) ∧ InBox (cellLo ax is) x (cellLo ax (is.map (· + 1))) := by
  induction ax generalizing x with
  | nil =>
    cases x with
    | nil => exact ⟨[], trivial, trivial⟩
    | cons _ _ => simp [InBox] at hx
  | cons a ax ih =>
    cases x with
    | nil => simp [InBox] at hx
    | cons x xs =>
      obtain ⟨is, h1, h2⟩ := ih (fun b hb => hax b (List.mem_cons_of_mem _ hb)) hx.2
      obtain ⟨i, hi, h3⟩ := axis_cover hx.1.1 (hax a List.mem_cons_self) hx.1.2
      exact ⟨i :: is, ⟨hi, h1⟩, ⟨h3, h2⟩⟩

theorem box_inside {ax : List (Axis K)} (hinc : ∀ a ∈ ax, a.Inc) {is : List Nat} {x : List K}
    (h : Within is (ax.map fun a => a.n)) (hx : InBox (cellLo ax is) x (cellLo ax (is.map (· + 1)))) :
    InBox (ax.map fun a => a.b 0) x (ax.map fun a => a.b a.n) := by
  induction ax generalizing is x with
  | nil => cases is <;> cases x <;> simp [Within, cellLo, InBox] at *
  | cons a ax ih =>
    cases is with
    | nil => simp [Within] at h
    | cons i is =>
      cases x with
      | nil => simp [cellLo, InBox] at hx
      | cons x xs =>
        have hi := hinc a List.mem_cons_self
        refine ⟨⟨(axis_mono hi (Nat.zero_le i) h.1.le).trans hx.1.1, hx.1.2.trans (axis_mono hi h.1 (le_refl _))⟩, ?_⟩
        exact ih (fun b hb => hinc b (List.mem_cons_of_mem _ hb)) h.2 hx.2

theorem box_unique {ax : List (Axis K)} (hinc : ∀ a ∈ ax, a.Inc) {is js : List Nat} {x : List K}
    (h : Within is (ax.map fun a => a.n)) (h' : Within js (ax.map fun a => a.n))
    (hx : InOpenBox (cellLo ax is) x (cellLo ax (is.map (· + 1))))
    (hx' : InBox (cellLo ax js) x (cellLo ax (js.map (· + 1)))) : is = js := by
  induction ax generalizing is js x with
  | nil => cases is <;> cases js <;> simp [Within] at *
  | cons a ax ih =>
    cases is with
    | nil => simp [Within] at h
    | cons i is =>
      cases js with
      | nil => simp [Within] at h'
      | cons j js =>
        cases x with
        | nil => simp [cellLo, InBox] at hx'
        | cons x xs =>
          rw [axis_unique (hinc a List.mem_cons_self) h.1 h'.1 hx.1 hx'.1,
            ih (fun b hb => hinc b (List.mem_cons_of_mem _ hb)) h.2 h'.2 hx.2 hx'.2]

/-- The cells tile the box from `lo` to `hi`: they cover it, lie in it and do not overlap. -/
structure TilesBox (start : Int) (C : List (List K)) (T : List (List Int)) (lo hi : List K) : Prop where
  cover : ∀ x, InBox lo x hi → ∃ c l h, CellCorners start C T c l h ∧ InBox l x h
  inside : ∀ c l h x, CellCorners start C T c l h → InBox l x h → InBox lo x hi
  disjoint : ∀ c l h c' l' h' x, CellCorners start C T c l h → CellCorners start C T c' l' h' →
    InOpenBox l x h → InBox l' x h' → c = c'

theorem IsGrid.tiles {ax : List (Axis K)} {start : Int} {C : List (List K)} {T : List (List Int)}
    (hg : IsGrid ax start C T) (hax : ∀ a ∈ ax, 1 ≤ a.n ∧ 2 ≤ a.N) (hinc : ∀ a ∈ ax, a.Inc) :
    TilesBox start C T (ax.map fun a => a.b 0) (ax.map fun a => a.b a.n) := by
  have cell : ∀ c l h, CellCorners start C T c l h → ∃ is, Within is (ax.map fun a => a.n) ∧
      c = lexNo is (ax.map fun a => a.n) ∧ l = cellLo ax is ∧ h = cellLo ax (is.map (· + 1)) := by
    intro c l h hc
    have hlt : c < T.length := by
      obtain ⟨r, hr, _⟩ := hc
      exact (List.getElem?_eq_some_iff.1 hr).1
    rw [hg.cells] at hlt
    obtain ⟨is, h1, rfl⟩ := lexNo_surj hlt
    obtain ⟨e1, e2⟩ := corners_unique hc (hg.corners hax h1)
    exact ⟨is, h1, rfl, e1, e2⟩
  refine ⟨?_, ?_, ?_⟩
  · intro x hx
    obtain ⟨is, h1, h2⟩ := box_cover (fun a ha => (hax a ha).1) hx
    exact ⟨_, _, _, hg.corners hax h1, h2⟩
  · intro c l h x hc hx
    obtain ⟨is, h1, rfl, rfl, rfl⟩ := cell c l h hc
    exact box_inside hinc h1 hx
  · intro c l h c' l' h' x hc hc' hx hx'
    obtain ⟨is, h1, rfl, rfl, rfl⟩ := cell c l h hc
    obtain ⟨js, h2, rfl, rfl, rfl⟩ := cell c' l' h' hc'
    rw [box_unique hinc h1 h2 hx hx']

/-- **C17** the cells of a 3d grid tile the box of the requested size. -/
theorem C17_tiles_3d (lX lY lZ : K) (nx ny nz Nx Ny Nz : Nat) (s0 s1 s2 : K) (start : Int)
    (h : 1 ≤ nx ∧ 1 ≤ ny ∧ 1 ≤ nz) (hN : 2 ≤ Nx ∧ 2 ≤ Ny ∧ 2 ≤ Nz) (hl : 0 < lX ∧ 0 < lY ∧ 0 < lZ) :
    TilesBox start (rgrid3 lX lY lZ nx ny nz Nx Ny Nz s0 s1 s2 start).1
      (rgrid3 lX lY lZ nx ny nz Nx Ny Nz s0 s1 s2 start).2 [s0, s1, s2] [s0 + lX, s1 + lY, s2 + lZ] := by
  have c : ∀ n : Nat, 1 ≤ n → ((n : K)) ≠ 0 := fun n hn => by exact_mod_cast (by omega : n ≠ 0)
  have := (C16_grid_3d lX lY lZ nx ny nz Nx Ny Nz s0 s1 s2 start h hN).tiles (by simp [uniAxis]; omega) (by
    simp only [List.forall_mem_cons, List.not_mem_nil, false_implies, implies_true, and_true]
    exact ⟨uniAxis_inc hl.1 h.1, uniAxis_inc hl.2.1 h.2.1, uniAxis_inc hl.2.2 h.2.2⟩)
  simpa [uniAxis, c nx h.1, c ny h.2.1, c nz h.2.2] using this

/-- **C17** 2d. -/
theorem C17_tiles_2d (lX lY : K) (nx ny Nx Ny : Nat) (s0 s1 : K) (start : Int)
    (h : 1 ≤ nx ∧ 1 ≤ ny) (hN : 2 ≤ Nx ∧ 2 ≤ Ny) (hl : 0 < lX ∧ 0 < lY) :
    TilesBox start (rgrid2 lX lY nx ny Nx Ny s0 s1 start).1 (rgrid2 lX lY nx ny Nx Ny s0 s1 start).2
      [s0, s1] [s0 + lX, s1 + lY] := by
  have c : ∀ n : Nat, 1 ≤ n → ((n : K)) ≠ 0 := fun n hn => by exact_mod_cast (by omega : n ≠ 0)
  have := (C16_grid_2d lX lY nx ny Nx Ny s0 s1 start h hN).tiles (by simp [uniAxis]; omega) (by
    simp only [List.forall_mem_cons, List.not_mem_nil, false_implies, implies_true, and_true]
    exact ⟨uniAxis_inc hl.1 h.1, uniAxis_inc hl.2 h.2⟩)
  simpa [uniAxis, c nx h.1, c ny h.2] using this

/-- **C21** the cells of a grid with increasing bins tile the box between the first and last values, 2d. -/
theorem C21_tiles_2d (bx bY : List K) (Nx Ny : Nat) (s0 s1 : K) (start : Int)
    (h : 2 ≤ bx.length ∧ 2 ≤ bY.length) (hN : 2 ≤ Nx ∧ 2 ≤ Ny) (hx : bx.Pairwise (· < ·)) (hy : bY.Pairwise (· < ·)) :
    TilesBox start (gridBins2 bx bY Nx Ny s0 s1 start).1 (gridBins2 bx bY Nx Ny s0 s1 start).2
      [s0 + bx.getD 0 0, s1 + bY.getD 0 0] [s0 + bx.getD (bx.length - 1) 0, s1 + bY.getD (bY.length - 1) 0] :=
  (C21_bins_2d bx bY Nx Ny s0 s1 start h hN).tiles (by simp [binAxis]; omega) (by
    simp only [List.forall_mem_cons, List.not_mem_nil, false_implies, implies_true, and_true]
    exact ⟨binAxis_inc hx, binAxis_inc hy⟩)

/-- **C21** 3d. -/
theorem C21_tiles_3d (bx bY bz : List K) (Nx Ny Nz : Nat) (s0 s1 s2 : K) (start : Int)
    (h : 2 ≤ bx.length ∧ 2 ≤ bY.length ∧ 2 ≤ bz.length) (hN : 2 ≤ Nx ∧ 2 ≤ Ny ∧ 2 ≤ Nz)
    (hx : bx.Pairwise (· < ·)) (hy : bY.Pairwise (· < ·)) (hz : bz.Pairwise (· < ·)) :
    TilesBox start (gridBins3 bx bY bz Nx Ny Nz s0 s1 s2 start).1 (gridBins3 bx bY bz Nx Ny Nz s0 s1 s2 start).2
      [s0 + bx.getD 0 0, s1 + bY.getD 0 0, s2 + bz.getD 0 0]
      [s0 + bx.getD (bx.length - 1) 0, s1 + bY.getD (bY.length - 1) 0, s2 + bz.getD (bz.length - 1) 0] :=
  (C21_bins_3d bx bY bz Nx Ny Nz s0 s1 s2 start h hN).tiles (by simp [binAxis]; omega) (by
    simp only [List.forall_mem_cons, List.not_mem_nil, false_implies, implies_true, and_true]
    exact ⟨binAxis_inc hx, binAxis_inc hy, binAxis_inc hz⟩)

example : 2 ≤ [(0 : ℚ), 1, 5].length ∧ [(0 : ℚ), 1, 5].Pairwise (· < ·) := by decide +kernel

end
end PM
