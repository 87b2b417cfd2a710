import Verif.GridLemmas
import Mathlib.Algebra.Order.Field.Basic

/-!
# Closed forms of the grids of the model
-/

set_option linter.unusedSectionVars false
set_option linter.unusedSimpArgs false
set_option linter.unusedVariables false

namespace PM

section
variable {K : Type} [Field K] [CharZero K]

/-- `n` equal intervals of total length `l`, starting at `s`, with `N` points each. -/
def uniAxis (l : K) (n N : Nat) (s : K) : Axis K := ⟨n, N, fun i => s + l / (n : K) * (i : K)⟩

/-- Intervals between consecutive values, moved by `s`. -/
def binAxis (bins : List K) (N : Nat) (s : K) : Axis K := ⟨bins.length - 1, N, fun i => s + bins.getD i 0⟩

theorem within1 {xs : List Nat} {a : Nat} : Within xs [a] ↔ ∃ x, xs = [x] ∧ x < a := by
  match xs with
  | [] => simp [Within]
  | [x] => simp [Within]
  | _ :: _ :: _ => simp [Within]

theorem within2 {xs : List Nat} {a b : Nat} : Within xs [a, b] ↔ ∃ x y, xs = [x, y] ∧ x < a ∧ y < b := by
  match xs with
  | [] => simp [Within]
  | [x] => simp [Within]
  | [x, y] => simp [Within]
  | _ :: _ :: _ :: _ => simp [Within]

theorem within3 {xs : List Nat} {a b c : Nat} :
    Within xs [a, b, c] ↔ ∃ x y z, xs = [x, y, z] ∧ x < a ∧ y < b ∧ z < c := by
  match xs with
  | [] => simp [Within]
  | [x] => simp [Within]
  | [x, y] => simp [Within]
  | [x, y, z] => simp [Within]
  | _ :: _ :: _ :: _ :: _ => simp [Within]

theorem exists_range'_one {P : Nat → Prop} {n : Nat} :
    (∃ i, i ∈ List.range' 1 n ∧ P i) ↔ ∃ i, i < n ∧ P (i + 1) := by
  constructor
  · rintro ⟨i, hi, h⟩
    rw [List.mem_range'_1] at hi
    exact ⟨i - 1, by omega, by rwa [Nat.sub_add_cancel hi.1]⟩
  · rintro ⟨i, hi, h⟩
    exact ⟨i + 1, by rw [List.mem_range'_1]; omega, h⟩

theorem node3_eq (ny nz Nx Ny Nz i j k m q p : Nat) :
    rgridNode3 ny nz Nx Ny Nz (i + 1) (j + 1) (k + 1) (m + 1) (q + 1) (p + 1) =
      (((Nx - 1) * i + m) * axPts ny Ny + ((Ny - 1) * j + q)) * axPts nz Nz + ((Nz - 1) * k + p) + 1 := by
  simp only [rgridNode3, Nat.add_sub_cancel]
  have e1 : (Nx - 1) * i + (m + 1) - 1 = (Nx - 1) * i + m := by omega
  have e2 : ((Nx - 1) * i + m) * axPts ny Ny + (Ny - 1) * j + (q + 1) - 1 =
    ((Nx - 1) * i + m) * axPts ny Ny + ((Ny - 1) * j + q) := by omega
  rw [e1, e2]
  omega

theorem node2_eq (ny Nx Ny i j m q : Nat) :
    rgridNode2 ny Nx Ny (i + 1) (j + 1) (m + 1) (q + 1) =
      ((Nx - 1) * i + m) * axPts ny Ny + ((Ny - 1) * j + q) + 1 := by
  simp only [rgridNode2, Nat.add_sub_cancel]
  have e1 : (Nx - 1) * i + (m + 1) - 1 = (Nx - 1) * i + m := by omega
  rw [e1]
  omega

theorem uni_pos (l : K) (n N : Nat) (s : K) (i m : Nat) :
    (uniAxis l n N s).pos i m = s + l / n * i + l / n / ((N - 1 : Nat) : K) * m := by
  simp only [uniAxis, Axis.pos]
  push_cast
  ring

theorem coordW3_ok (lX lY lZ : K) (nx ny nz Nx Ny Nz : Nat) (s0 s1 s2 : K) :
    CoordWrites [uniAxis lX nx Nx s0, uniAxis lY ny Ny s1, uniAxis lZ nz Nz s2]
      (rgridCoordW3 lX lY lZ nx ny nz Nx Ny Nz s0 s1 s2) := by
  have key : ∀ x, x ∈ rgridCoordW3 lX lY lZ nx ny nz Nx Ny Nz s0 s1 s2 ↔
      ∃ i, i < nx ∧ ∃ j, j < ny ∧ ∃ k, k < nz ∧ ∃ m, m < Nx ∧ ∃ q, q < Ny ∧ ∃ p, p < Nz ∧
        x.1.1 = (((Nx - 1) * i + m) * axPts ny Ny + ((Ny - 1) * j + q)) * axPts nz Nz + ((Nz - 1) * k + p) ∧
        [(uniAxis lX nx Nx s0).pos i m, (uniAxis lY ny Ny s1).pos j q, (uniAxis lZ nz Nz s2).pos k p][x.1.2]? =
          some x.2 := by
    intro x
    simp only [rgridCoordW3, List.mem_flatMap, exists_range'_one, mem_rowWrites, node3_eq, Nat.add_sub_cancel,
      uni_pos]
  constructor
  · intro x hx
    obtain ⟨i, hi, j, hj, k, hk, m, hm, q, hq, p, hp, h1, h2⟩ := (key x).1 hx
    refine ⟨[i, j, k], [m, q, p], ⟨hi, hj, hk, trivial⟩, ⟨hm, hq, hp, trivial⟩, ?_, h2⟩
    rw [h1]
    simp only [List.map_cons, List.map_nil, gridNo, lexNo, List.prod_cons, List.prod_nil, Axis.no, Axis.pts, uniAxis,
      axPts]
    ring
  · intro is ms c v hi hm hv
    obtain ⟨i, j, k, rfl, hi, hj, hk⟩ := within3.1 hi
    obtain ⟨m, q, p, rfl, hm, hq, hp⟩ := within3.1 hm
    rw [key]
    refine ⟨i, hi, j, hj, k, hk, m, hm, q, hq, p, hp, ?_, hv⟩
    simp only [List.map_cons, List.map_nil, gridNo, lexNo, List.prod_cons, List.prod_nil, Axis.no, Axis.pts, uniAxis,
      axPts]
    ring

theorem topoW3_ok (lX lY lZ : K) (nx ny nz Nx Ny Nz : Nat) (s0 s1 s2 : K) :
    TopoWrites [uniAxis lX nx Nx s0, uniAxis lY ny Ny s1, uniAxis lZ nz Nz s2] 1
      (rgridTopoW3 nx ny nz Nx Ny Nz) := by
  have key : ∀ x, x ∈ rgridTopoW3 nx ny nz Nx Ny Nz ↔
      ∃ i, i < nx ∧ ∃ j, j < ny ∧ ∃ k, k < nz ∧ ∃ m, m < Nx ∧ ∃ q, q < Ny ∧ ∃ p, p < Nz ∧
        ((i * ny * nz + j * nz + k, m * Ny * Nz + q * Nz + p),
        (((Nx - 1) * i + m) * axPts ny Ny + ((Ny - 1) * j + q)) * axPts nz Nz + ((Nz - 1) * k + p) + 1) = x := by
    intro x
    simp only [rgridTopoW3, List.mem_flatMap, List.mem_map, exists_range'_one, node3_eq, Nat.add_sub_cancel]
    simp only [← Nat.add_assoc, Nat.add_sub_cancel]
  have e : ∀ i j k m q p : Nat, ((lexNo [i, j, k] ([uniAxis lX nx Nx s0, uniAxis lY ny Ny s1, uniAxis lZ nz Nz s2].map fun a => a.n),
      lexNo [m, q, p] ([uniAxis lX nx Nx s0, uniAxis lY ny Ny s1, uniAxis lZ nz Nz s2].map fun a => a.N)),
      lexNo (gridNo [uniAxis lX nx Nx s0, uniAxis lY ny Ny s1, uniAxis lZ nz Nz s2] [i, j, k] [m, q, p])
        ([uniAxis lX nx Nx s0, uniAxis lY ny Ny s1, uniAxis lZ nz Nz s2].map Axis.pts) + 1) =
      ((i * ny * nz + j * nz + k, m * Ny * Nz + q * Nz + p),
        (((Nx - 1) * i + m) * axPts ny Ny + ((Ny - 1) * j + q)) * axPts nz Nz + ((Nz - 1) * k + p) + 1) := by
    intro i j k m q p
    simp only [List.map_cons, List.map_nil, gridNo, lexNo, List.prod_cons, List.prod_nil, Axis.no, Axis.pts, uniAxis,
      axPts, Prod.mk.injEq]
    refine ⟨⟨?_, ?_⟩, ?_⟩ <;> ring
  constructor
  · intro x hx
    obtain ⟨i, hi, j, hj, k, hk, m, hm, q, hq, p, hp, rfl⟩ := (key x).1 hx
    exact ⟨[i, j, k], [m, q, p], ⟨hi, hj, hk, trivial⟩, ⟨hm, hq, hp, trivial⟩, (e i j k m q p).symm⟩
  · intro is ms hi hm
    obtain ⟨i, j, k, rfl, hi, hj, hk⟩ := within3.1 hi
    obtain ⟨m, q, p, rfl, hm, hq, hp⟩ := within3.1 hm
    rw [key]
    exact ⟨i, hi, j, hj, k, hk, m, hm, q, hq, p, hp, (e i j k m q p).symm⟩

theorem coordW2_ok (lX lY : K) (nx ny Nx Ny : Nat) (s0 s1 : K) :
    CoordWrites [uniAxis lX nx Nx s0, uniAxis lY ny Ny s1] (rgridCoordW2 lX lY nx ny Nx Ny s0 s1) := by
  have key : ∀ x, x ∈ rgridCoordW2 lX lY nx ny Nx Ny s0 s1 ↔
      ∃ i, i < nx ∧ ∃ j, j < ny ∧ ∃ m, m < Nx ∧ ∃ q, q < Ny ∧
        x.1.1 = ((Nx - 1) * i + m) * axPts ny Ny + ((Ny - 1) * j + q) ∧
        [(uniAxis lX nx Nx s0).pos i m, (uniAxis lY ny Ny s1).pos j q][x.1.2]? = some x.2 := by
    intro x
    simp only [rgridCoordW2, List.mem_flatMap, exists_range'_one, mem_rowWrites, node2_eq, Nat.add_sub_cancel,
      uni_pos]
  constructor
  · intro x hx
    obtain ⟨i, hi, j, hj, m, hm, q, hq, h1, h2⟩ := (key x).1 hx
    refine ⟨[i, j], [m, q], ⟨hi, hj, trivial⟩, ⟨hm, hq, trivial⟩, ?_, h2⟩
    rw [h1]
    simp only [List.map_cons, List.map_nil, gridNo, lexNo, List.prod_cons, List.prod_nil, Axis.no, Axis.pts, uniAxis,
      axPts]
    ring
  · intro is ms c v hi hm hv
    obtain ⟨i, j, rfl, hi, hj⟩ := within2.1 hi
    obtain ⟨m, q, rfl, hm, hq⟩ := within2.1 hm
    rw [key]
    refine ⟨i, hi, j, hj, m, hm, q, hq, ?_, hv⟩
    simp only [List.map_cons, List.map_nil, gridNo, lexNo, List.prod_cons, List.prod_nil, Axis.no, Axis.pts, uniAxis,
      axPts]
    ring

theorem topoW2_ok (lX lY : K) (nx ny Nx Ny : Nat) (s0 s1 : K) :
    TopoWrites [uniAxis lX nx Nx s0, uniAxis lY ny Ny s1] 1 (rgridTopoW2 nx ny Nx Ny) := by
  have key : ∀ x, x ∈ rgridTopoW2 nx ny Nx Ny ↔
      ∃ i, i < nx ∧ ∃ j, j < ny ∧ ∃ m, m < Nx ∧ ∃ q, q < Ny ∧
        ((i * ny + j, m * Ny + q), ((Nx - 1) * i + m) * axPts ny Ny + ((Ny - 1) * j + q) + 1) = x := by
    intro x
    simp only [rgridTopoW2, List.mem_flatMap, List.mem_map, exists_range'_one, node2_eq, Nat.add_sub_cancel]
    simp only [← Nat.add_assoc, Nat.add_sub_cancel]
  have e : ∀ i j m q : Nat, ((lexNo [i, j] ([uniAxis lX nx Nx s0, uniAxis lY ny Ny s1].map fun a => a.n),
      lexNo [m, q] ([uniAxis lX nx Nx s0, uniAxis lY ny Ny s1].map fun a => a.N)),
      lexNo (gridNo [uniAxis lX nx Nx s0, uniAxis lY ny Ny s1] [i, j] [m, q])
        ([uniAxis lX nx Nx s0, uniAxis lY ny Ny s1].map Axis.pts) + 1) =
      ((i * ny + j, m * Ny + q), ((Nx - 1) * i + m) * axPts ny Ny + ((Ny - 1) * j + q) + 1) := by
    intro i j m q
    simp only [List.map_cons, List.map_nil, gridNo, lexNo, List.prod_cons, List.prod_nil, Axis.no, Axis.pts, uniAxis,
      axPts, Prod.mk.injEq]
    refine ⟨⟨?_, ?_⟩, ?_⟩ <;> ring
  constructor
  · intro x hx
    obtain ⟨i, hi, j, hj, m, hm, q, hq, rfl⟩ := (key x).1 hx
    exact ⟨[i, j], [m, q], ⟨hi, hj, trivial⟩, ⟨hm, hq, trivial⟩, (e i j m q).symm⟩
  · intro is ms hi hm
    obtain ⟨i, j, rfl, hi, hj⟩ := within2.1 hi
    obtain ⟨m, q, rfl, hm, hq⟩ := within2.1 hm
    rw [key]
    exact ⟨i, hi, j, hj, m, hm, q, hq, (e i j m q).symm⟩

theorem coordW1_ok (lX : K) (nx Nx : Nat) (s0 : K) :
    CoordWrites [uniAxis lX nx Nx s0] (rgridCoordW1 lX nx Nx s0) := by
  have key : ∀ x, x ∈ rgridCoordW1 lX nx Nx s0 ↔ ∃ i, i < nx ∧ ∃ m, m < Nx ∧
        x.1.1 = (Nx - 1) * i + m ∧ [(uniAxis lX nx Nx s0).pos i m][x.1.2]? = some x.2 := by
    intro x
    simp only [rgridCoordW1, List.mem_flatMap, exists_range'_one, mem_rowWrites, Nat.add_sub_cancel, uni_pos]
    simp only [← Nat.add_assoc, Nat.add_sub_cancel]
  constructor
  · intro x hx
    obtain ⟨i, hi, m, hm, h1, h2⟩ := (key x).1 hx
    refine ⟨[i], [m], ⟨hi, trivial⟩, ⟨hm, trivial⟩, ?_, h2⟩
    rw [h1]
    simp [gridNo, lexNo, Axis.no, uniAxis]
  · intro is ms c v hi hm hv
    obtain ⟨i, rfl, hi'⟩ := within1.1 hi
    obtain ⟨m, rfl, hm'⟩ := within1.1 hm
    rw [key]
    refine ⟨i, hi', m, hm', ?_, hv⟩
    simp [gridNo, lexNo, Axis.no, uniAxis]

theorem topoW1_ok (lX : K) (nx Nx : Nat) (s0 : K) :
    TopoWrites [uniAxis lX nx Nx s0] 1 (rgridTopoW1 nx Nx) := by
  have key : ∀ x, x ∈ rgridTopoW1 nx Nx ↔ ∃ i, i < nx ∧ ∃ m, m < Nx ∧ ((i, m), (Nx - 1) * i + m + 1) = x := by
    intro x
    simp only [rgridTopoW1, List.mem_flatMap, List.mem_map, exists_range'_one, Nat.add_sub_cancel]
    simp only [← Nat.add_assoc]
  have e : ∀ i m : Nat, ((lexNo [i] ([uniAxis lX nx Nx s0].map fun a => a.n),
      lexNo [m] ([uniAxis lX nx Nx s0].map fun a => a.N)),
      lexNo (gridNo [uniAxis lX nx Nx s0] [i] [m]) ([uniAxis lX nx Nx s0].map Axis.pts) + 1) =
      ((i, m), (Nx - 1) * i + m + 1) := by
    intro i m
    simp [gridNo, lexNo, Axis.no, uniAxis]
  constructor
  · intro x hx
    obtain ⟨i, hi, m, hm, rfl⟩ := (key x).1 hx
    exact ⟨[i], [m], ⟨hi, trivial⟩, ⟨hm, trivial⟩, (e i m).symm⟩
  · intro is ms hi hm
    obtain ⟨i, rfl, hi'⟩ := within1.1 hi
    obtain ⟨m, rfl, hm'⟩ := within1.1 hm
    rw [key]
    exact ⟨i, hi', m, hm', (e i m).symm⟩

theorem withStart_succ (start : Int) (t : Topo) : withStart start (t.map (List.map (· + 1))) = addStart start t := by
  simp only [withStart, addStart, List.map_map]
  congr 1; funext r
  simp only [Function.comp_apply, List.map_map]
  congr 1; funext n
  simp only [Function.comp_apply]
  push_cast; omega

theorem addStart_id (start : Int) (t : Topo) : addStart start (t.map (List.map (· + 0))) = addStart start t := by
  simp

/-- Closed form in 3d, for every order of the assignments. -/
theorem rgrid3_closed (lX lY lZ : K) {nx ny nz Nx Ny Nz : Nat} (s0 s1 s2 : K) (start : Int)
    (h : 1 ≤ nx ∧ 1 ≤ ny ∧ 1 ≤ nz) (hN : 2 ≤ Nx ∧ 2 ≤ Ny ∧ 2 ≤ Nz) {wc : List ((Nat × Nat) × K)}
    {wt : List ((Nat × Nat) × Nat)} (hc : (rgridCoordW3 lX lY lZ nx ny nz Nx Ny Nz s0 s1 s2).Perm wc)
    (ht : (rgridTopoW3 nx ny nz Nx Ny Nz).Perm wt) :
    rgrid3With nx ny nz Nx Ny Nz start wc wt =
      (gridCoords [uniAxis lX nx Nx s0, uniAxis lY ny Ny s1, uniAxis lZ nz Nz s2],
       addStart start (gridTopo [uniAxis lX nx Nx s0, uniAxis lY ny Ny s1, uniAxis lZ nz Nz s2])) := by
  rw [rgrid3With, ((coordW3_ok lX lY lZ nx ny nz Nx Ny Nz s0 s1 s2).perm hc).rows,
    ((topoW3_ok lX lY lZ nx ny nz Nx Ny Nz s0 s1 s2).perm ht).rows, withStart_succ]
  · simp [uniAxis, Nat.mul_assoc]
  · simp [uniAxis, Nat.mul_assoc]
  · simp [uniAxis]; omega
  · simp [uniAxis, Nat.mul_assoc, axPts, Axis.pts]
  · rfl

/-- Closed form in 2d. -/
theorem rgrid2_closed (lX lY : K) {nx ny Nx Ny : Nat} (s0 s1 : K) (start : Int)
    (h : 1 ≤ nx ∧ 1 ≤ ny) (hN : 2 ≤ Nx ∧ 2 ≤ Ny) {wc : List ((Nat × Nat) × K)}
    {wt : List ((Nat × Nat) × Nat)} (hc : (rgridCoordW2 lX lY nx ny Nx Ny s0 s1).Perm wc)
    (ht : (rgridTopoW2 nx ny Nx Ny).Perm wt) :
    rgrid2With nx ny Nx Ny start wc wt =
      (gridCoords [uniAxis lX nx Nx s0, uniAxis lY ny Ny s1],
       addStart start (gridTopo [uniAxis lX nx Nx s0, uniAxis lY ny Ny s1])) := by
  rw [rgrid2With, ((coordW2_ok lX lY nx ny Nx Ny s0 s1).perm hc).rows,
    ((topoW2_ok lX lY nx ny Nx Ny s0 s1).perm ht).rows, withStart_succ]
  · simp [uniAxis]
  · simp [uniAxis]
  · simp [uniAxis]; omega
  · simp [uniAxis, axPts, Axis.pts]
  · rfl

/-- Closed form in 1d. -/
theorem rgrid1_closed (lX : K) {nx Nx : Nat} (s0 : K) (start : Int)
    (h : 1 ≤ nx) (hN : 2 ≤ Nx) {wc : List ((Nat × Nat) × K)}
    {wt : List ((Nat × Nat) × Nat)} (hc : (rgridCoordW1 lX nx Nx s0).Perm wc)
    (ht : (rgridTopoW1 nx Nx).Perm wt) :
    rgrid1With nx Nx start wc wt =
      (gridCoords [uniAxis lX nx Nx s0], addStart start (gridTopo [uniAxis lX nx Nx s0])) := by
  rw [rgrid1With, ((coordW1_ok lX nx Nx s0).perm hc).rows,
    ((topoW1_ok lX nx Nx s0).perm ht).rows, withStart_succ]
  · simp [uniAxis]
  · simp [uniAxis]
  · simp [uniAxis]; omega
  · simp [uniAxis, axPts, Axis.pts]
  · rfl

/-! ## bins -/

theorem bin_pos (b : List K) (N : Nat) (s : K) (i m : Nat) :
    (binAxis b N s).pos i m = s + b.getD i 0 + (b.getD (i + 1) 0 - b.getD i 0) / ((N - 1 : Nat) : K) * (m : K) := by
  simp only [binAxis, Axis.pos]
  ring

theorem binsCoordW2_ok (bx bY : List K) (Nx Ny : Nat) (s0 s1 : K) :
    CoordWrites [binAxis bx Nx s0, binAxis bY Ny s1] (binsCoordW2 bx bY Nx Ny s0 s1) := by
  have key : ∀ x, x ∈ binsCoordW2 bx bY Nx Ny s0 s1 ↔
      ∃ i, i < bx.length - 1 ∧ ∃ j, j < bY.length - 1 ∧ ∃ m, m < Nx ∧ ∃ q, q < Ny ∧
        x.1.1 = ((Nx - 1) * i + m) * axPts (bY.length - 1) Ny + (Ny - 1) * j + q ∧
        [(binAxis bx Nx s0).pos i m, (binAxis bY Ny s1).pos j q][x.1.2]? = some x.2 := by
    intro x
    simp only [binsCoordW2, List.mem_flatMap, List.mem_range, mem_rowWrites, bin_pos]
  constructor
  · intro x hx
    obtain ⟨i, hi, j, hj, m, hm, q, hq, h1, h2⟩ := (key x).1 hx
    refine ⟨[i, j], [m, q], ⟨hi, hj, trivial⟩, ⟨hm, hq, trivial⟩, ?_, h2⟩
    rw [h1]
    simp only [List.map_cons, List.map_nil, gridNo, lexNo, List.prod_cons, List.prod_nil, Axis.no, Axis.pts, binAxis,
      axPts]
    ring
  · intro is ms c v hi hm hv
    obtain ⟨i, j, rfl, hi, hj⟩ := within2.1 hi
    obtain ⟨m, q, rfl, hm, hq⟩ := within2.1 hm
    rw [key]
    refine ⟨i, hi, j, hj, m, hm, q, hq, ?_, hv⟩
    simp only [List.map_cons, List.map_nil, gridNo, lexNo, List.prod_cons, List.prod_nil, Axis.no, Axis.pts, binAxis,
      axPts]
    ring

theorem binsTopoW2_ok (bx bY : List K) (Nx Ny : Nat) (s0 s1 : K) :
    TopoWrites [binAxis bx Nx s0, binAxis bY Ny s1] 0 (binsTopoW2 (bx.length - 1) (bY.length - 1) Nx Ny) := by
  have key : ∀ x, x ∈ binsTopoW2 (bx.length - 1) (bY.length - 1) Nx Ny ↔
      ∃ i, i < bx.length - 1 ∧ ∃ j, j < bY.length - 1 ∧ ∃ m, m < Nx ∧ ∃ q, q < Ny ∧
        ((i * (bY.length - 1) + j, m * Ny + q), ((Nx - 1) * i + m) * axPts (bY.length - 1) Ny + (Ny - 1) * j + q) = x := by
    intro x
    simp only [binsTopoW2, List.mem_flatMap, List.mem_map, List.mem_range]
  have e : ∀ i j m q : Nat, ((lexNo [i, j] ([binAxis bx Nx s0, binAxis bY Ny s1].map fun a => a.n),
      lexNo [m, q] ([binAxis bx Nx s0, binAxis bY Ny s1].map fun a => a.N)),
      lexNo (gridNo [binAxis bx Nx s0, binAxis bY Ny s1] [i, j] [m, q])
        ([binAxis bx Nx s0, binAxis bY Ny s1].map Axis.pts) + 0) =
      ((i * (bY.length - 1) + j, m * Ny + q), ((Nx - 1) * i + m) * axPts (bY.length - 1) Ny + (Ny - 1) * j + q) := by
    intro i j m q
    simp only [List.map_cons, List.map_nil, gridNo, lexNo, List.prod_cons, List.prod_nil, Axis.no, Axis.pts, binAxis,
      axPts, Prod.mk.injEq]
    refine ⟨⟨?_, ?_⟩, ?_⟩ <;> ring
  constructor
  · intro x hx
    obtain ⟨i, hi, j, hj, m, hm, q, hq, rfl⟩ := (key x).1 hx
    exact ⟨[i, j], [m, q], ⟨hi, hj, trivial⟩, ⟨hm, hq, trivial⟩, (e i j m q).symm⟩
  · intro is ms hi hm
    obtain ⟨i, j, rfl, hi, hj⟩ := within2.1 hi
    obtain ⟨m, q, rfl, hm, hq⟩ := within2.1 hm
    rw [key]
    exact ⟨i, hi, j, hj, m, hm, q, hq, (e i j m q).symm⟩

theorem binsCoordW3_ok (bx bY bz : List K) (Nx Ny Nz : Nat) (s0 s1 s2 : K) :
    CoordWrites [binAxis bx Nx s0, binAxis bY Ny s1, binAxis bz Nz s2] (binsCoordW3 bx bY bz Nx Ny Nz s0 s1 s2) := by
  have key : ∀ x, x ∈ binsCoordW3 bx bY bz Nx Ny Nz s0 s1 s2 ↔
      ∃ i, i < bx.length - 1 ∧ ∃ j, j < bY.length - 1 ∧ ∃ k, k < bz.length - 1 ∧ ∃ m, m < Nx ∧ ∃ q, q < Ny ∧ ∃ p, p < Nz ∧
        x.1.1 = (((Nx - 1) * i + m) * axPts (bY.length - 1) Ny + (Ny - 1) * j + q) * axPts (bz.length - 1) Nz +
          (Nz - 1) * k + p ∧
        [(binAxis bx Nx s0).pos i m, (binAxis bY Ny s1).pos j q, (binAxis bz Nz s2).pos k p][x.1.2]? = some x.2 := by
    intro x
    simp only [binsCoordW3, List.mem_flatMap, List.mem_range, mem_rowWrites, bin_pos]
  constructor
  · intro x hx
    obtain ⟨i, hi, j, hj, k, hk, m, hm, q, hq, p, hp, h1, h2⟩ := (key x).1 hx
    refine ⟨[i, j, k], [m, q, p], ⟨hi, hj, hk, trivial⟩, ⟨hm, hq, hp, trivial⟩, ?_, h2⟩
    rw [h1]
    simp only [List.map_cons, List.map_nil, gridNo, lexNo, List.prod_cons, List.prod_nil, Axis.no, Axis.pts, binAxis,
      axPts]
    ring
  · intro is ms c v hi hm hv
    obtain ⟨i, j, k, rfl, hi, hj, hk⟩ := within3.1 hi
    obtain ⟨m, q, p, rfl, hm, hq, hp⟩ := within3.1 hm
    rw [key]
    refine ⟨i, hi, j, hj, k, hk, m, hm, q, hq, p, hp, ?_, hv⟩
    simp only [List.map_cons, List.map_nil, gridNo, lexNo, List.prod_cons, List.prod_nil, Axis.no, Axis.pts, binAxis,
      axPts]
    ring

theorem binsTopoW3_ok (bx bY bz : List K) (Nx Ny Nz : Nat) (s0 s1 s2 : K) :
    TopoWrites [binAxis bx Nx s0, binAxis bY Ny s1, binAxis bz Nz s2] 0
      (binsTopoW3 (bx.length - 1) (bY.length - 1) (bz.length - 1) Nx Ny Nz) := by
  have key : ∀ x, x ∈ binsTopoW3 (bx.length - 1) (bY.length - 1) (bz.length - 1) Nx Ny Nz ↔
      ∃ i, i < bx.length - 1 ∧ ∃ j, j < bY.length - 1 ∧ ∃ k, k < bz.length - 1 ∧ ∃ m, m < Nx ∧ ∃ q, q < Ny ∧ ∃ p, p < Nz ∧
        ((i * (bz.length - 1) * (bY.length - 1) + j * (bz.length - 1) + k, m * Nz * Ny + q * Nz + p),
        (((Nx - 1) * i + m) * axPts (bY.length - 1) Ny + (Ny - 1) * j + q) * axPts (bz.length - 1) Nz +
          (Nz - 1) * k + p) = x := by
    intro x
    simp only [binsTopoW3, List.mem_flatMap, List.mem_map, List.mem_range]
  have e : ∀ i j k m q p : Nat, ((lexNo [i, j, k] ([binAxis bx Nx s0, binAxis bY Ny s1, binAxis bz Nz s2].map fun a => a.n),
      lexNo [m, q, p] ([binAxis bx Nx s0, binAxis bY Ny s1, binAxis bz Nz s2].map fun a => a.N)),
      lexNo (gridNo [binAxis bx Nx s0, binAxis bY Ny s1, binAxis bz Nz s2] [i, j, k] [m, q, p])
        ([binAxis bx Nx s0, binAxis bY Ny s1, binAxis bz Nz s2].map Axis.pts) + 0) =
        ((i * (bz.length - 1) * (bY.length - 1) + j * (bz.length - 1) + k, m * Nz * Ny + q * Nz + p),
        (((Nx - 1) * i + m) * axPts (bY.length - 1) Ny + (Ny - 1) * j + q) * axPts (bz.length - 1) Nz +
          (Nz - 1) * k + p) := by
    intro i j k m q p
    simp only [List.map_cons, List.map_nil, gridNo, lexNo, List.prod_cons, List.prod_nil, Axis.no, Axis.pts, binAxis,
      axPts, Prod.mk.injEq]
    refine ⟨⟨?_, ?_⟩, ?_⟩ <;> ring
  constructor
  · intro x hx
    obtain ⟨i, hi, j, hj, k, hk, m, hm, q, hq, p, hp, rfl⟩ := (key x).1 hx
    exact ⟨[i, j, k], [m, q, p], ⟨hi, hj, hk, trivial⟩, ⟨hm, hq, hp, trivial⟩, (e i j k m q p).symm⟩
  · intro is ms hi hm
    obtain ⟨i, j, k, rfl, hi, hj, hk⟩ := within3.1 hi
    obtain ⟨m, q, p, rfl, hm, hq, hp⟩ := within3.1 hm
    rw [key]
    exact ⟨i, hi, j, hj, k, hk, m, hm, q, hq, p, hp, (e i j k m q p).symm⟩

theorem bins2_closed {bx bY : List K} {Nx Ny : Nat} (s0 s1 : K) (start : Int) (h : 2 ≤ bx.length ∧ 2 ≤ bY.length)
    (hN : 2 ≤ Nx ∧ 2 ≤ Ny) {wc : List ((Nat × Nat) × K)} {wt : List ((Nat × Nat) × Nat)}
    (hc : (binsCoordW2 bx bY Nx Ny s0 s1).Perm wc)
    (ht : (binsTopoW2 (bx.length - 1) (bY.length - 1) Nx Ny).Perm wt) :
    bins2With (bx.length - 1) (bY.length - 1) Nx Ny start wc wt =
      (gridCoords [binAxis bx Nx s0, binAxis bY Ny s1], addStart start (gridTopo [binAxis bx Nx s0, binAxis bY Ny s1])) := by
  rw [bins2With, ((binsCoordW2_ok bx bY Nx Ny s0 s1).perm hc).rows,
    ((binsTopoW2_ok bx bY Nx Ny s0 s1).perm ht).rows, addStart_id]
  · simp [binAxis]
  · simp [binAxis]
  · simp [binAxis]; omega
  · simp [binAxis, axPts, Axis.pts]
  · rfl

theorem bins3_closed {bx bY bz : List K} {Nx Ny Nz : Nat} (s0 s1 s2 : K) (start : Int)
    (h : 2 ≤ bx.length ∧ 2 ≤ bY.length ∧ 2 ≤ bz.length)
    (hN : 2 ≤ Nx ∧ 2 ≤ Ny ∧ 2 ≤ Nz) {wc : List ((Nat × Nat) × K)} {wt : List ((Nat × Nat) × Nat)}
    (hc : (binsCoordW3 bx bY bz Nx Ny Nz s0 s1 s2).Perm wc)
    (ht : (binsTopoW3 (bx.length - 1) (bY.length - 1) (bz.length - 1) Nx Ny Nz).Perm wt) :
    bins3With (bx.length - 1) (bY.length - 1) (bz.length - 1) Nx Ny Nz start wc wt =
      (gridCoords [binAxis bx Nx s0, binAxis bY Ny s1, binAxis bz Nz s2],
       addStart start (gridTopo [binAxis bx Nx s0, binAxis bY Ny s1, binAxis bz Nz s2])) := by
  rw [bins3With, ((binsCoordW3_ok bx bY bz Nx Ny Nz s0 s1 s2).perm hc).rows,
    ((binsTopoW3_ok bx bY bz Nx Ny Nz s0 s1 s2).perm ht).rows, addStart_id]
  · simp [binAxis, Nat.mul_assoc]
  · simp [binAxis, Nat.mul_assoc]
  · simp [binAxis]; omega
  · simp [binAxis, axPts, Axis.pts, Nat.mul_assoc]
  · rfl

end
end PM
