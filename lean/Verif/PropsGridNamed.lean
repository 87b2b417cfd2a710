import Verif.PropsGrid

/-!
# C18 (offset), C19 (VTK order), C17 (centralisation)
-/

set_option linter.unusedSectionVars false
set_option linter.unusedSimpArgs false
set_option linter.unusedVariables false

namespace PM

/-- A transformation with one row picks entries, or fails if an entry is missing. -/
theorem transform_one {α : Type} (topo : List (List α)) (p : List Nat) (z : α) :
    transformTopology topo [p] p.length z = topo.mapM fun cell => p.mapM fun q => cell[q]? := by
  have key : toRows ([p].length * topo.length) p.length (runW (transformWrites topo [p] p.length) fun _ => some z) =
      topo.map fun cell => p.map fun q => cell[q]? := by
    apply toRows_runW
    · simp
    · intro x hx
      obtain ⟨c, _, rfl⟩ := List.mem_map.1 hx
      simp
    · intro x hx
      obtain ⟨i, j, k, hi, hj, hk, rfl⟩ := mem_transformWrites.1 hx
      simp only [List.length_singleton, Nat.lt_one_iff] at hk
      subst hk
      simp [nodeAt, pick?, hi, hj]
    · intro i j hi hj
      left
      simp only [List.length_singleton, Nat.one_mul] at hi
      exact ⟨_, mem_transformWrites.2 ⟨i, j, 0, hi, hj, by simp, rfl⟩, by simp⟩
  rw [transformTopology, transformResult, key]
  clear key
  induction topo with
  | nil => rfl
  | cons c t ih =>
    rw [List.map_cons, List.mapM_cons, List.mapM_cons, ih]
    congr 1
    rw [List.mapM_map]
    rfl

theorem mapM_pick_map {α β : Type} (f : α → β) (p : List Nat) (cell : List α) :
    (p.mapM fun q => (cell.map f)[q]?) = (p.mapM fun q => cell[q]?).map (List.map f) := by
  induction p with
  | nil => rfl
  | cons q p ih =>
    rw [List.mapM_cons, List.mapM_cons, ih, List.getElem?_map]
    cases cell[q]? with
    | none => rfl
    | some v =>
      cases (p.mapM fun q => cell[q]?) with
      | none => rfl
      | some w => rfl

theorem transform_one_map {α β : Type} (f : α → β) (topo : List (List α)) (p : List Nat) (z : α) (z' : β) :
    transformTopology (topo.map (List.map f)) [p] p.length z' =
      (transformTopology topo [p] p.length z).map (List.map (List.map f)) := by
  rw [transform_one, transform_one]
  induction topo with
  | nil => rfl
  | cons c t ih =>
    rw [List.map_cons, List.mapM_cons, List.mapM_cons, ih, mapM_pick_map]
    cases (p.mapM fun q => c[q]?) with
    | none => rfl
    | some v =>
      cases (t.mapM fun cell => p.mapM fun q => cell[q]?) with
      | none => rfl
      | some w => rfl

section
variable {K : Type} [Field K] [CharZero K]

/-! ## C18 -/

/-- The same points, all node numbers increased by `s`. -/
def offsetBy (s : Int) (g : List (List K) × List (List Int)) : List (List K) × List (List Int) :=
  (g.1, g.2.map (List.map (· + s)))

theorem withStart_offset (s : Int) (t : Topo) : withStart s t = (withStart 0 t).map (List.map (· + s)) := by
  simp only [withStart, List.map_map]
  congr 1; funext r
  simp only [Function.comp_apply, List.map_map]
  congr 1; funext n
  simp only [Function.comp_apply]; omega

theorem addStart_offset (s : Int) (t : Topo) : addStart s t = (addStart 0 t).map (List.map (· + s)) := by
  simp [addStart, Function.comp_def]

theorem gridRaw_offset (a : GridArgs K) (s : Int) (nD : Nat) (eshape : List Nat) (b : Bool) :
    gridRaw { a with start := s } nD eshape b = (gridRaw { a with start := 0 } nD eshape b).map (offsetBy s) := by
  unfold gridRaw
  dsimp only
  cases a.bins with
  | some bins =>
    dsimp only
    split
    · simp only [Option.map_some, offsetBy, gridBins2, bins2With]
      rw [addStart_offset]
    · simp only [Option.map_some, offsetBy, gridBins3, bins3With]
      rw [addStart_offset]
    · rfl
  | none =>
    dsimp only
    split
    · split
      · simp only [Option.map_some, offsetBy, rgrid2, rgrid2With]
        rw [withStart_offset]
      · simp only [Option.map_some, offsetBy, rgrid3, rgrid3With]
        rw [withStart_offset]
      · rfl
    · rfl

theorem gridFinish_offset (c : Bool) (s : Int) (nD : Nat) (path : Option (List Nat))
    (g : List (List K) × List (List Int)) :
    gridFinish c nD path (offsetBy s g) = (gridFinish c nD path g).map (offsetBy s) := by
  unfold gridFinish
  simp only [offsetBy]
  cases gridCenter c nD g.1 with
  | none => rfl
  | some x =>
    cases path with
    | none => rfl
    | some p =>
      simp only [gridPath, Option.bind_eq_bind, Option.bind_some]
      rw [transform_one_map (fun n : Int => n + s) g.2 p 0 0]
      cases transformTopology g.2 [p] p.length 0 <;> rfl

theorem gridCore_offset (a : GridArgs K) (s : Int) (eshape : List Nat) (b : Bool) (path : Option (List Nat)) :
    gridCore { a with start := s } eshape b path = (gridCore { a with start := 0 } eshape b path).map (offsetBy s) := by
  unfold gridCore
  have hD : GridArgs.nDime { a with start := s } = GridArgs.nDime { a with start := 0 } := rfl
  rw [hD]
  cases GridArgs.nDime { a with start := 0 } with
  | none => rfl
  | some nD =>
    simp only [Option.bind_eq_bind, Option.bind_some]
    rw [gridRaw_offset]
    cases gridRaw { a with start := 0 } nD eshape b with
    | none => rfl
    | some g => exact gridFinish_offset _ _ _ _ _

theorem gridNamed_offset (eshape path : List Nat) (a : GridArgs K) (s : Int) :
    gridNamed eshape path { a with start := s } = (gridNamed eshape path { a with start := 0 }).map (offsetBy s) := by
  unfold gridNamed
  rw [gridCore_offset]
  cases gridCore { a with start := 0 } eshape true none with
  | none => rfl
  | some x =>
    simp only [Option.map_some, Option.bind_eq_bind, Option.bind_some, offsetBy]
    rw [transform_one_map (fun n : Int => n + s) x.2 path 0 0]
    cases transformTopology x.2 [path] path.length 0 <;> rfl

/-- **C18** `start=s` adds `s` to all node numbers and leaves the coordinates alone; for all arguments, and one
call fails if and only if the other does. -/
theorem C18_start (a : GridArgs K) (s : Int) (eshape : EShape) (path : Option (List Nat)) :
    grid { a with start := s } eshape path = (grid { a with start := 0 } eshape path).map (offsetBy s) := by
  unfold grid
  have hD : GridArgs.nDime { a with start := s } = GridArgs.nDime { a with start := 0 } := rfl
  rw [hD]
  cases GridArgs.nDime { a with start := 0 } with
  | none => rfl
  | some nD =>
    simp only [Option.bind_eq_bind, Option.bind_some]
    split
    · exact gridCore_offset a s _ _ _
    · exact gridCore_offset a s _ _ _
    · exact gridNamed_offset _ _ { a with shift := some (a.shift.getD (List.replicate nD 0)) } s
    · exact gridNamed_offset _ _ { a with shift := some (a.shift.getD (List.replicate nD 0)) } s
    · exact gridNamed_offset _ _ { a with shift := some (a.shift.getD (List.replicate nD 0)) } s
    · exact gridNamed_offset _ _ { a with shift := some (a.shift.getD (List.replicate nD 0)) } s
    · rfl

example : grid ({ size := some [(1 : ℚ), 1], shape := some [1, 1], start := 7 } : GridArgs ℚ) (.name "Q4") none =
    some ([[0, 0], [0, 1], [1, 0], [1, 1]], [[7, 9, 10, 8]]) := by decide +kernel

/-! ## C19 -/

/-- The affine map that takes the square or cube `[-1, 1]^d` to a box given by its ends. -/
def boxAff (x0 x1 y0 y1 z0 z1 : K) : Aff K :=
  ⟨⟨(x0 + x1) / 2, (y0 + y1) / 2, (z0 + z1) / 2⟩, ⟨(x1 - x0) / 2, 0, 0⟩, ⟨0, (y1 - y0) / 2, 0⟩, ⟨0, 0, (z1 - z0) / 2⟩⟩

/-- Node `n` of each cell is at the image of the `n`-th local coordinate of the master cell `lc`; plane grids. -/
def VtkGrid2 (lc : List (V3 Int)) (ax ay : Axis K) (start : Int) (C : List (List K)) (T : List (List Int)) : Prop :=
  T.length = ax.n * ay.n ∧ (∀ r ∈ T, r.length = lc.length) ∧
  ∀ i j n, i < ax.n → j < ay.n → n < lc.length → ∃ node : Nat, nodeAt T (i * ay.n + j) n = some ((node : Int) + start) ∧
    ∃ P : V3 K, P = (boxAff (ax.b i) (ax.b (i + 1)) (ay.b j) (ay.b (j + 1)) 0 0).app (half (lc.getD n 0)) ∧
      C[node]? = some [P.x, P.y]

/-- The same in space. -/
def VtkGrid3 (lc : List (V3 Int)) (ax ay az : Axis K) (start : Int) (C : List (List K)) (T : List (List Int)) : Prop :=
  T.length = ax.n * ay.n * az.n ∧ (∀ r ∈ T, r.length = lc.length) ∧
  ∀ i j k n, i < ax.n → j < ay.n → k < az.n → n < lc.length →
    ∃ node : Nat, nodeAt T ((i * ay.n + j) * az.n + k) n = some ((node : Int) + start) ∧
    ∃ P : V3 K, P = (boxAff (ax.b i) (ax.b (i + 1)) (ay.b j) (ay.b (j + 1)) (az.b k) (az.b (k + 1))).app
        (half (lc.getD n 0)) ∧ C[node]? = some [P.x, P.y, P.z]

/-- The path lists, for each local node, its place in the lexicographic order; plane cells with `N` nodes per side. -/
def PathTab2 (N : Nat) (path : List Nat) (lc : List (V3 Int)) : Prop :=
  path.length = lc.length ∧ ∀ n, n < lc.length → ∃ m, m < N ∧ ∃ q, q < N ∧ path.getD n 0 = m * N + q ∧
    ((N : Int) - 1) * (lc.getD n 0).x = 4 * m - 2 * ((N : Int) - 1) ∧
    ((N : Int) - 1) * (lc.getD n 0).y = 4 * q - 2 * ((N : Int) - 1)

def PathTab3 (N : Nat) (path : List Nat) (lc : List (V3 Int)) : Prop :=
  path.length = lc.length ∧ ∀ n, n < lc.length → ∃ m, m < N ∧ ∃ q, q < N ∧ ∃ p, p < N ∧
    path.getD n 0 = (m * N + q) * N + p ∧
    ((N : Int) - 1) * (lc.getD n 0).x = 4 * m - 2 * ((N : Int) - 1) ∧
    ((N : Int) - 1) * (lc.getD n 0).y = 4 * q - 2 * ((N : Int) - 1) ∧
    ((N : Int) - 1) * (lc.getD n 0).z = 4 * p - 2 * ((N : Int) - 1)

theorem tabQ4 : PathTab2 2 pathQ4 lcQ4 := ⟨by decide, by decide +kernel⟩
theorem tabQ9 : PathTab2 3 pathQ9 lcQ9 := ⟨by decide, by decide +kernel⟩
theorem tabH8 : PathTab3 2 pathH8 lcH8 := ⟨by decide, by decide +kernel⟩
theorem tabH27 : PathTab3 3 pathH27 lcH27 := ⟨by decide, by decide +kernel⟩

theorem pos_master {a : Axis K} (hN : 2 ≤ a.N) (i m : Nat) {ξ : Int}
    (h : ((a.N : Int) - 1) * ξ = 4 * m - 2 * ((a.N : Int) - 1)) :
    a.pos i m = (a.b i + a.b (i + 1)) / 2 + (ξ : K) / 2 * ((a.b (i + 1) - a.b i) / 2) := by
  have h1 : ((a.N - 1 : Nat) : K) = (a.N : K) - 1 := by rw [Nat.cast_sub (by omega)]; simp
  have h0 : (a.N : K) - 1 ≠ 0 := by rw [← h1]; exact_mod_cast (by omega : a.N - 1 ≠ 0)
  have h2 : ((a.N : K) - 1) * ξ = 4 * m - 2 * ((a.N : K) - 1) := by exact_mod_cast congrArg (fun z : Int => (z : K)) h
  have h3 : (m : K) / ((a.N : K) - 1) = (ξ + 2) / 4 := by
    rw [div_eq_div_iff h0 (by norm_num)]
    linear_combination -h2
  rw [Axis.pos, h1, h3]
  ring

theorem pathOK_grid (ax : List (Axis K)) (start : Int) {path : List Nat}
    (h : ∀ q ∈ path, q < (ax.map fun a => a.N).prod) : PathOK (addStart start (gridTopo ax)) [path] path.length := by
  refine ⟨by simp, ?_⟩
  intro cell hc p hp q hq
  simp only [List.mem_singleton] at hp
  subst hp
  simp only [addStart, List.mem_map] at hc
  obtain ⟨r, hr, rfl⟩ := hc
  obtain ⟨is, _, rfl⟩ := mem_gridL.1 hr
  rw [List.length_map, length_gridL]
  exact h q hq

theorem mem_path_lt {path : List Nat} {L : Nat} (hl : path.length = L) {b : Nat}
    (h : ∀ n, n < L → path.getD n 0 < b) : ∀ q ∈ path, q < b := by
  intro q hq
  obtain ⟨n, hn, rfl⟩ := List.mem_iff_getElem.1 hq
  have := h n (by omega)
  rwa [List.getD_eq_getElem?_getD, List.getElem?_eq_getElem hn] at this

/-- Reordering the columns of a plane grid. -/
theorem vtk2_closed (N : Nat) (hN : 2 ≤ N) {path : List Nat} {lc : List (V3 Int)} (htab : PathTab2 N path lc)
    (ax ay : Axis K) (hx : ax.N = N) (hy : ay.N = N) (start : Int) :
    ∃ T, transformTopology (addStart start (gridTopo [ax, ay])) [path] path.length 0 = some T ∧
      VtkGrid2 lc ax ay start (gridCoords [ax, ay]) T := by
  obtain ⟨hlen, htab⟩ := htab
  have hp : ∀ q ∈ path, q < ([ax, ay].map fun a => a.N).prod := by
    apply mem_path_lt hlen
    intro n hn
    obtain ⟨m, hm, q, hq, e, _⟩ := htab n hn
    have := lexNo_lt (xs := [m, q]) (ds := [N, N]) ⟨hm, hq, trivial⟩
    simp [lexNo] at this
    rw [e]; simpa [hx, hy] using this
  obtain ⟨T, h1, h2, h3⟩ := C09_transform_topology _ _ _ (0 : Int) (pathOK_grid [ax, ay] start hp)
  have hlT : (addStart start (gridTopo [ax, ay])).length = ax.n * ay.n := by
    rw [addStart, List.length_map, gridTopo, length_gridL]; simp
  rw [hlT] at h2 h3
  refine ⟨T, h1, by simpa using h2, ?_, ?_⟩
  · intro r hr
    obtain ⟨i, hi, rfl⟩ := List.mem_iff_getElem.1 hr
    obtain ⟨row, e1, e2, _⟩ := h3 i 0 (by simpa [h2] using hi) (by simp)
    simp only [List.length_singleton, Nat.mul_one, Nat.add_zero, List.getElem?_eq_getElem hi, Option.some.injEq] at e1
    rw [e1, e2, hlen]
  · intro i j n hi hj hn
    obtain ⟨m, hm, q, hq, e, ex, ey⟩ := htab n hn
    have hw : Within [i, j] ([ax, ay].map fun a => a.n) := ⟨hi, hj, trivial⟩
    have hw' : Within [m, q] ([ax, ay].map fun a => a.N) := ⟨by dsimp only; omega, by dsimp only; omega, trivial⟩
    have hc : i * ay.n + j < ax.n * ay.n := by
      have := lexNo_lt hw; simpa [lexNo] using this
    obtain ⟨row, e1, _, e3⟩ := h3 (i * ay.n + j) 0 hc (by simp)
    simp only [List.length_singleton, Nat.mul_one, Nat.add_zero] at e1
    have e4 := e3 n (path.getD n 0) (by
      simp [nodeAt, List.getD_eq_getElem?_getD, List.getElem?_eq_getElem (by omega : n < path.length)])
    have e5 := nodeAt_gridTopo hw hw'
    refine ⟨lexNo (gridNo [ax, ay] [i, j] [m, q]) ([ax, ay].map Axis.pts), ?_, _, rfl, ?_⟩
    · rw [nodeAt, e1]
      show row[n]? = _
      rw [e4, e]
      have a1 : lexNo [i, j] ([ax, ay].map fun a => a.n) = i * ay.n + j := by simp [lexNo]
      have a2 : lexNo [m, q] ([ax, ay].map fun a => a.N) = m * N + q := by simp [lexNo, hy]
      rw [a1, a2] at e5
      unfold nodeAt at e5 ⊢
      rw [addStart, List.getElem?_map]
      cases hr : (gridTopo [ax, ay])[i * ay.n + j]? with
      | none => rw [hr] at e5; simp at e5
      | some r => rw [hr] at e5; simpa using e5
    · rw [gridCoords_get (by simp [hx, hy, hN]) hw hw']
      simp only [gridPos]
      rw [pos_master (a := ax) (by omega) i m (by rw [hx]; exact ex),
        pos_master (a := ay) (by omega) j q (by rw [hy]; exact ey)]
      simp [boxAff, Aff.app, half]

/-- Reordering the columns of a grid in space. -/
theorem vtk3_closed (N : Nat) (hN : 2 ≤ N) {path : List Nat} {lc : List (V3 Int)} (htab : PathTab3 N path lc)
    (ax ay az : Axis K) (hx : ax.N = N) (hy : ay.N = N) (hz : az.N = N) (start : Int) :
    ∃ T, transformTopology (addStart start (gridTopo [ax, ay, az])) [path] path.length 0 = some T ∧
      VtkGrid3 lc ax ay az start (gridCoords [ax, ay, az]) T := by
  obtain ⟨hlen, htab⟩ := htab
  have hp : ∀ q ∈ path, q < ([ax, ay, az].map fun a => a.N).prod := by
    apply mem_path_lt hlen
    intro n hn
    obtain ⟨m, hm, q, hq, p, hp, e, _⟩ := htab n hn
    have := lexNo_lt (xs := [m, q, p]) (ds := [N, N, N]) ⟨hm, hq, hp, trivial⟩
    simp only [lexNo, List.prod_cons, List.prod_nil, Nat.mul_one] at this
    simp only [List.map_cons, List.map_nil, List.prod_cons, List.prod_nil, hx, hy, hz, e, Nat.mul_one]
    calc (m * N + q) * N + p = m * (N * N) + (q * N + (p * 1 + 0)) := by ring
      _ < _ := by simpa using this
  obtain ⟨T, h1, h2, h3⟩ := C09_transform_topology _ _ _ (0 : Int) (pathOK_grid [ax, ay, az] start hp)
  have hlT : (addStart start (gridTopo [ax, ay, az])).length = ax.n * ay.n * az.n := by
    rw [addStart, List.length_map, gridTopo, length_gridL]; simp [Nat.mul_assoc]
  rw [hlT] at h2 h3
  refine ⟨T, h1, by simpa using h2, ?_, ?_⟩
  · intro r hr
    obtain ⟨i, hi, rfl⟩ := List.mem_iff_getElem.1 hr
    obtain ⟨row, e1, e2, _⟩ := h3 i 0 (by simpa [h2] using hi) (by simp)
    simp only [List.length_singleton, Nat.mul_one, Nat.add_zero, List.getElem?_eq_getElem hi, Option.some.injEq] at e1
    rw [e1, e2, hlen]
  · intro i j k n hi hj hk hn
    obtain ⟨m, hm, q, hq, p, hp, e, ex, ey, ez⟩ := htab n hn
    have hw : Within [i, j, k] ([ax, ay, az].map fun a => a.n) := ⟨hi, hj, hk, trivial⟩
    have hw' : Within [m, q, p] ([ax, ay, az].map fun a => a.N) := ⟨by dsimp only; omega, by dsimp only; omega, by dsimp only; omega, trivial⟩
    have a1 : lexNo [i, j, k] ([ax, ay, az].map fun a => a.n) = (i * ay.n + j) * az.n + k := by
      simp [lexNo]; ring
    have a2 : lexNo [m, q, p] ([ax, ay, az].map fun a => a.N) = (m * N + q) * N + p := by
      simp [lexNo, hy, hz]; ring
    have hc : (i * ay.n + j) * az.n + k < ax.n * ay.n * az.n := by
      have := lexNo_lt hw
      rw [a1] at this
      simpa [Nat.mul_assoc] using this
    obtain ⟨row, e1, _, e3⟩ := h3 ((i * ay.n + j) * az.n + k) 0 hc (by simp)
    simp only [List.length_singleton, Nat.mul_one, Nat.add_zero] at e1
    have e4 := e3 n (path.getD n 0) (by
      simp [nodeAt, List.getD_eq_getElem?_getD, List.getElem?_eq_getElem (by omega : n < path.length)])
    have e5 := nodeAt_gridTopo hw hw'
    refine ⟨lexNo (gridNo [ax, ay, az] [i, j, k] [m, q, p]) ([ax, ay, az].map Axis.pts), ?_, _, rfl, ?_⟩
    · rw [nodeAt, e1]
      show row[n]? = _
      rw [e4, e]
      rw [a1, a2] at e5
      unfold nodeAt at e5 ⊢
      rw [addStart, List.getElem?_map]
      cases hr : (gridTopo [ax, ay, az])[(i * ay.n + j) * az.n + k]? with
      | none => rw [hr] at e5; simp at e5
      | some r => rw [hr] at e5; simpa using e5
    · rw [gridCoords_get (by simp [hx, hy, hz, hN]) hw hw']
      simp only [gridPos]
      rw [pos_master (a := ax) (by omega) i m (by rw [hx]; exact ex),
        pos_master (a := ay) (by omega) j q (by rw [hy]; exact ey),
        pos_master (a := az) (by omega) k p (by rw [hz]; exact ez)]
      simp [boxAff, Aff.app, half]

/-- The arguments of a plane uniform grid. -/
def args2 (lX lY : K) (nx ny : Nat) (s0 s1 : K) (start : Int) : GridArgs K :=
  { size := some [lX, lY], shape := some [nx, ny], shift := some [s0, s1], start := start }

/-- The arguments of a uniform grid in space. -/
def args3 (lX lY lZ : K) (nx ny nz : Nat) (s0 s1 s2 : K) (start : Int) : GridArgs K :=
  { size := some [lX, lY, lZ], shape := some [nx, ny, nz], shift := some [s0, s1, s2], start := start }

/-- The arguments of grids with bins. -/
def argsB2 (bx bY : List K) (s0 s1 : K) (start : Int) : GridArgs K :=
  { bins := some [bx, bY], shift := some [s0, s1], start := start }

def argsB3 (bx bY bz : List K) (s0 s1 s2 : K) (start : Int) : GridArgs K :=
  { bins := some [bx, bY, bz], shift := some [s0, s1, s2], start := start }

theorem named_uni2 (N : Nat) (hN : 2 ≤ N) {path : List Nat} {lc : List (V3 Int)} (htab : PathTab2 N path lc)
    (lX lY : K) (nx ny : Nat) (s0 s1 : K) (start : Int) (h : 1 ≤ nx ∧ 1 ≤ ny) :
    ∃ C T, gridNamed [N, N] path (args2 lX lY nx ny s0 s1 start) = some (C, T) ∧
      VtkGrid2 lc (uniAxis lX nx N s0) (uniAxis lY ny N s1) start C T := by
  obtain ⟨T, h1, h2⟩ := vtk2_closed N hN htab (uniAxis lX nx N s0) (uniAxis lY ny N s1) rfl rfl start
  refine ⟨_, T, ?_, h2⟩
  have e : gridCore (args2 lX lY nx ny s0 s1 start) [N, N] true none = some (rgrid2 lX lY nx ny N N s0 s1 start) := rfl
  rw [gridNamed, e]
  simp only [Option.bind_eq_bind, Option.bind_some]
  rw [rgrid2, rgrid2_closed lX lY s0 s1 start h ⟨hN, hN⟩ (.refl _) (.refl _), h1]
  rfl

theorem named_uni3 (N : Nat) (hN : 2 ≤ N) {path : List Nat} {lc : List (V3 Int)} (htab : PathTab3 N path lc)
    (lX lY lZ : K) (nx ny nz : Nat) (s0 s1 s2 : K) (start : Int) (h : 1 ≤ nx ∧ 1 ≤ ny ∧ 1 ≤ nz) :
    ∃ C T, gridNamed [N, N, N] path (args3 lX lY lZ nx ny nz s0 s1 s2 start) = some (C, T) ∧
      VtkGrid3 lc (uniAxis lX nx N s0) (uniAxis lY ny N s1) (uniAxis lZ nz N s2) start C T := by
  obtain ⟨T, h1, h2⟩ := vtk3_closed N hN htab (uniAxis lX nx N s0) (uniAxis lY ny N s1) (uniAxis lZ nz N s2)
    rfl rfl rfl start
  refine ⟨_, T, ?_, h2⟩
  have e : gridCore (args3 lX lY lZ nx ny nz s0 s1 s2 start) [N, N, N] true none =
    some (rgrid3 lX lY lZ nx ny nz N N N s0 s1 s2 start) := rfl
  rw [gridNamed, e]
  simp only [Option.bind_eq_bind, Option.bind_some]
  rw [rgrid3, rgrid3_closed lX lY lZ s0 s1 s2 start h ⟨hN, hN, hN⟩ (.refl _) (.refl _), h1]
  rfl

theorem named_bins2 (N : Nat) (hN : 2 ≤ N) {path : List Nat} {lc : List (V3 Int)} (htab : PathTab2 N path lc)
    (bx bY : List K) (s0 s1 : K) (start : Int) (h : 2 ≤ bx.length ∧ 2 ≤ bY.length) :
    ∃ C T, gridNamed [N, N] path (argsB2 bx bY s0 s1 start) = some (C, T) ∧
      VtkGrid2 lc (binAxis bx N s0) (binAxis bY N s1) start C T := by
  obtain ⟨T, h1, h2⟩ := vtk2_closed N hN htab (binAxis bx N s0) (binAxis bY N s1) rfl rfl start
  refine ⟨_, T, ?_, h2⟩
  have e : gridCore (argsB2 bx bY s0 s1 start) [N, N] true none = some (gridBins2 bx bY N N s0 s1 start) := rfl
  rw [gridNamed, e]
  simp only [Option.bind_eq_bind, Option.bind_some]
  rw [gridBins2, bins2_closed s0 s1 start h ⟨hN, hN⟩ (.refl _) (.refl _), h1]
  rfl

theorem named_bins3 (N : Nat) (hN : 2 ≤ N) {path : List Nat} {lc : List (V3 Int)} (htab : PathTab3 N path lc)
    (bx bY bz : List K) (s0 s1 s2 : K) (start : Int) (h : 2 ≤ bx.length ∧ 2 ≤ bY.length ∧ 2 ≤ bz.length) :
    ∃ C T, gridNamed [N, N, N] path (argsB3 bx bY bz s0 s1 s2 start) = some (C, T) ∧
      VtkGrid3 lc (binAxis bx N s0) (binAxis bY N s1) (binAxis bz N s2) start C T := by
  obtain ⟨T, h1, h2⟩ := vtk3_closed N hN htab (binAxis bx N s0) (binAxis bY N s1) (binAxis bz N s2) rfl rfl rfl start
  refine ⟨_, T, ?_, h2⟩
  have e : gridCore (argsB3 bx bY bz s0 s1 s2 start) [N, N, N] true none =
    some (gridBins3 bx bY bz N N N s0 s1 s2 start) := rfl
  rw [gridNamed, e]
  simp only [Option.bind_eq_bind, Option.bind_some]
  rw [gridBins3, bins3_closed s0 s1 s2 start h ⟨hN, hN, hN⟩ (.refl _) (.refl _), h1]
  rfl

/-- **C19** the cells of `gridQ4` follow the local coordinates of `Q4`. -/
theorem C19_gridQ4 (lX lY : K) (nx ny : Nat) (s0 s1 : K) (start : Int) (h : 1 ≤ nx ∧ 1 ≤ ny) :
    ∃ C T, gridQ4 (args2 lX lY nx ny s0 s1 start) = some (C, T) ∧
      VtkGrid2 lcQ4 (uniAxis lX nx 2 s0) (uniAxis lY ny 2 s1) start C T := named_uni2 2 (by omega) tabQ4 _ _ _ _ _ _ _ h

/-- **C19** `gridQ9`. -/
theorem C19_gridQ9 (lX lY : K) (nx ny : Nat) (s0 s1 : K) (start : Int) (h : 1 ≤ nx ∧ 1 ≤ ny) :
    ∃ C T, gridQ9 (args2 lX lY nx ny s0 s1 start) = some (C, T) ∧
      VtkGrid2 lcQ9 (uniAxis lX nx 3 s0) (uniAxis lY ny 3 s1) start C T := named_uni2 3 (by omega) tabQ9 _ _ _ _ _ _ _ h

/-- **C19** `gridH8`. -/
theorem C19_gridH8 (lX lY lZ : K) (nx ny nz : Nat) (s0 s1 s2 : K) (start : Int) (h : 1 ≤ nx ∧ 1 ≤ ny ∧ 1 ≤ nz) :
    ∃ C T, gridH8 (args3 lX lY lZ nx ny nz s0 s1 s2 start) = some (C, T) ∧
      VtkGrid3 lcH8 (uniAxis lX nx 2 s0) (uniAxis lY ny 2 s1) (uniAxis lZ nz 2 s2) start C T :=
  named_uni3 2 (by omega) tabH8 _ _ _ _ _ _ _ _ _ _ h

/-- **C19** `gridH27`. -/
theorem C19_gridH27 (lX lY lZ : K) (nx ny nz : Nat) (s0 s1 s2 : K) (start : Int) (h : 1 ≤ nx ∧ 1 ≤ ny ∧ 1 ≤ nz) :
    ∃ C T, gridH27 (args3 lX lY lZ nx ny nz s0 s1 s2 start) = some (C, T) ∧
      VtkGrid3 lcH27 (uniAxis lX nx 3 s0) (uniAxis lY ny 3 s1) (uniAxis lZ nz 3 s2) start C T :=
  named_uni3 3 (by omega) tabH27 _ _ _ _ _ _ _ _ _ _ h

/-- **C19**, **C21** grids made from bins: cell `(i, j)` is the box between consecutive values, in VTK order. -/
theorem C21_gridQ4_bins (bx bY : List K) (s0 s1 : K) (start : Int) (h : 2 ≤ bx.length ∧ 2 ≤ bY.length) :
    ∃ C T, gridQ4 (argsB2 bx bY s0 s1 start) = some (C, T) ∧
      VtkGrid2 lcQ4 (binAxis bx 2 s0) (binAxis bY 2 s1) start C T := named_bins2 2 (by omega) tabQ4 _ _ _ _ _ h

theorem C21_gridQ9_bins (bx bY : List K) (s0 s1 : K) (start : Int) (h : 2 ≤ bx.length ∧ 2 ≤ bY.length) :
    ∃ C T, gridQ9 (argsB2 bx bY s0 s1 start) = some (C, T) ∧
      VtkGrid2 lcQ9 (binAxis bx 3 s0) (binAxis bY 3 s1) start C T := named_bins2 3 (by omega) tabQ9 _ _ _ _ _ h

theorem C21_gridH8_bins (bx bY bz : List K) (s0 s1 s2 : K) (start : Int)
    (h : 2 ≤ bx.length ∧ 2 ≤ bY.length ∧ 2 ≤ bz.length) :
    ∃ C T, gridH8 (argsB3 bx bY bz s0 s1 s2 start) = some (C, T) ∧
      VtkGrid3 lcH8 (binAxis bx 2 s0) (binAxis bY 2 s1) (binAxis bz 2 s2) start C T :=
  named_bins3 2 (by omega) tabH8 _ _ _ _ _ _ _ h

theorem C21_gridH27_bins (bx bY bz : List K) (s0 s1 s2 : K) (start : Int)
    (h : 2 ≤ bx.length ∧ 2 ≤ bY.length ∧ 2 ≤ bz.length) :
    ∃ C T, gridH27 (argsB3 bx bY bz s0 s1 s2 start) = some (C, T) ∧
      VtkGrid3 lcH27 (binAxis bx 3 s0) (binAxis bY 3 s1) (binAxis bz 3 s2) start C T :=
  named_bins3 3 (by omega) tabH27 _ _ _ _ _ _ _ h

/-- **C19** the documented call `grid(..., eshape="Q4")` etc. is `gridQ4` etc. -/
theorem C19_grid_by_name (lX lY lZ : K) (nx ny nz : Nat) (s0 s1 s2 : K) (start : Int) (path : Option (List Nat)) :
    grid (args2 lX lY nx ny s0 s1 start) (.name "Q4") path = gridQ4 (args2 lX lY nx ny s0 s1 start) ∧
    grid (args2 lX lY nx ny s0 s1 start) (.name "Q9") path = gridQ9 (args2 lX lY nx ny s0 s1 start) ∧
    grid (args3 lX lY lZ nx ny nz s0 s1 s2 start) (.name "H8") path = gridH8 (args3 lX lY lZ nx ny nz s0 s1 s2 start) ∧
    grid (args3 lX lY lZ nx ny nz s0 s1 s2 start) (.name "H27") path =
      gridH27 (args3 lX lY lZ nx ny nz s0 s1 s2 start) := ⟨rfl, rfl, rfl, rfl⟩

/-- The argument `path` is ignored, without a message, if the element shape is given by name. -/
theorem C19_path_ignored (a : GridArgs K) (s : String) (path : Option (List Nat)) :
    grid a (.name s) path = grid a (.name s) none := by
  unfold grid
  cases a.nDime with
  | none => rfl
  | some n =>
    simp only [Option.bind_eq_bind, Option.bind_some]
    split <;> first | rfl | contradiction | skip

/-! ## centralisation -/

theorem sum_gridL_cons {β : Type} (d : Nat) (ds : List Nat) (f : List Nat → β) (g : β → K) :
    ((gridL (d :: ds) f).map g).sum = ((List.range d).map fun x => ((gridL ds fun xs => f (x :: xs)).map g).sum).sum := by
  rw [gridL, List.map_flatMap]
  generalize List.range d = l
  induction l with
  | nil => rfl
  | cons x l ih => simp [ih]

theorem sum_const (l : List Nat) (c : K) : (l.map fun _ => c).sum = (l.length : K) * c := by
  induction l with
  | nil => simp
  | cons x l ih => simp only [List.map_cons, List.sum_cons, ih, List.length_cons]; push_cast; ring

theorem sum_mul_left (l : List Nat) (f : Nat → K) (c : K) : (l.map fun x => c * f x).sum = c * (l.map f).sum := by
  induction l with
  | nil => simp
  | cons x l ih => simp only [List.map_cons, List.sum_cons, ih]; ring

/-- The mean of a coordinate over all points is the mean over the axis. -/
theorem colSum (μ : Axis K → K) (ax : List (Axis K))
    (hμ : ∀ a ∈ ax, ((List.range a.pts).map a.val).sum = (a.pts : K) * μ a) {c : Nat} {a : Axis K}
    (hc : ax[c]? = some a) :
    ((gridCoords ax).map fun r => r.getD c 0).sum = (((ax.map Axis.pts).prod : Nat) : K) * μ a := by
  induction ax generalizing c with
  | nil => simp at hc
  | cons b ax ih =>
    rw [gridCoords, List.map_cons, sum_gridL_cons]
    cases c with
    | zero =>
      simp only [List.getElem?_cons_zero, Option.some.injEq] at hc
      subst hc
      have e : ∀ x, ((gridL (ax.map Axis.pts) fun xs => gridVal (b :: ax) (x :: xs)).map fun r => r.getD 0 0).sum =
          (((ax.map Axis.pts).prod : Nat) : K) * b.val x := by
        intro x
        rw [map_gridL]
        simp only [gridVal, List.getD_cons_zero]
        have : ∀ ds : List Nat, (gridL ds fun _ => b.val x).sum = ((ds.prod : Nat) : K) * b.val x := by
          intro ds
          have h1 : (gridL ds fun _ => b.val x) = List.replicate ds.prod (b.val x) := by
            rw [List.eq_replicate_iff]
            refine ⟨length_gridL _ _, fun y hy => ?_⟩
            obtain ⟨_, _, rfl⟩ := mem_gridL.1 hy; rfl
          rw [h1]; simp
        exact this _
      simp only [e]
      rw [sum_mul_left, hμ b List.mem_cons_self, List.prod_cons]
      push_cast; ring
    | succ c =>
      have e : ∀ x, ((gridL (ax.map Axis.pts) fun xs => gridVal (b :: ax) (x :: xs)).map fun r => r.getD (c + 1) 0).sum =
          (((ax.map Axis.pts).prod : Nat) : K) * μ a := by
        intro x
        rw [← ih (fun d hd => hμ d (List.mem_cons_of_mem _ hd)) (by simpa using hc), gridCoords, map_gridL, map_gridL]
        simp only [gridVal, List.getD_cons_succ]
      simp only [e]
      rw [sum_const, List.length_range, List.prod_cons]
      push_cast; ring

theorem sum_range_cast (n : Nat) : ((List.range n).map fun x : Nat => (x : K)).sum = (n : K) * ((n : K) - 1) / 2 := by
  induction n with
  | zero => simp
  | succ n ih => rw [List.range_succ, List.map_append, List.sum_append, ih]; simp; ring

theorem uni_val (l : K) {n N : Nat} (s : K) (hn : 1 ≤ n) (hN : 2 ≤ N) (x : Nat) :
    (uniAxis l n N s).val x = s + l / n / ((N - 1 : Nat) : K) * x := by
  rw [Axis.val, uni_pos]
  have h0 : ((N - 1 : Nat) : K) ≠ 0 := by exact_mod_cast (by omega : N - 1 ≠ 0)
  have h1 : (x : K) = ((N - 1 : Nat) : K) * ((x / (N - 1) : Nat) : K) + ((x % (N - 1) : Nat) : K) := by
    exact_mod_cast (Nat.div_add_mod x (N - 1)).symm
  simp only [uniAxis]
  conv_rhs => rw [h1]
  field_simp
  ring

theorem uni_mean (l : K) {n N : Nat} (s : K) (hn : 1 ≤ n) (hN : 2 ≤ N) :
    ((List.range (uniAxis l n N s).pts).map (uniAxis l n N s).val).sum =
      ((uniAxis l n N s).pts : K) * (s + l / 2) := by
  have h0 : ((N - 1 : Nat) : K) ≠ 0 := by exact_mod_cast (by omega : N - 1 ≠ 0)
  have hn0 : (n : K) ≠ 0 := by exact_mod_cast (by omega : n ≠ 0)
  have e : (uniAxis l n N s).val = fun x : Nat => s + l / n / ((N - 1 : Nat) : K) * x := by
    funext x; exact uni_val l s hn hN x
  rw [e]
  have : ∀ (k : Nat) (d : K), ((List.range k).map fun x : Nat => s + d * (x : K)).sum = k * s + d * (k * ((k : K) - 1) / 2) := by
    intro k d
    rw [List.sum_map_add, sum_const, sum_mul_left, sum_range_cast, List.length_range]
  rw [this]
  simp only [Axis.pts, uniAxis]
  push_cast
  field_simp
  ring

/-- Each row with the vector `c` subtracted. -/
def Moved (C C' : List (List K)) (c : List K) : Prop := C' = C.map fun r => List.zipWith (· - ·) r c

theorem centralize_closed (μ : Axis K → K) (ax : List (Axis K)) (hax : ∀ a ∈ ax, 1 ≤ a.n ∧ 2 ≤ a.N) (h2 : 2 ≤ ax.length)
    (hμ : ∀ a ∈ ax, ((List.range a.pts).map a.val).sum = (a.pts : K) * μ a) :
    ∃ C', centralizeRows (gridCoords ax) ax.length = some C' ∧ Moved (gridCoords ax) C' (ax.map μ) := by
  have hne : (((ax.map Axis.pts).prod : Nat) : K) ≠ 0 := by
    have : (ax.map Axis.pts).prod ≠ 0 := by
      have key : ∀ l : List (Axis K), (l.map Axis.pts).prod ≠ 0 := by
        intro l
        induction l with
        | nil => simp
        | cons a l ih => rw [List.map_cons, List.prod_cons]; exact Nat.mul_ne_zero (by simp [Axis.pts]) ih
      exact key ax
    exact_mod_cast this
  refine ⟨_, by rw [centralizeRows, if_neg (by omega)], ?_⟩
  unfold Moved
  apply List.map_congr_left
  intro r hr
  obtain ⟨xs, hxs, rfl⟩ := mem_gridL.1 hr
  have hl := length_gridVal ax hxs
  apply List.ext_getElem
  · simp [hl]
  · intro c h1 _
    have hc : c < ax.length := by simpa [hl] using h1
    simp only [List.getElem_map, List.getElem_zipIdx, List.getElem_zipWith, Nat.zero_add]
    have e : ((gridCoords ax).map fun r => r.getD c 0).sum / ((gridCoords ax).length : K) = μ ax[c] := by
      rw [colSum μ ax hμ (List.getElem?_eq_getElem hc), show (gridCoords ax).length = _ from length_gridL _ _,
        mul_div_cancel_left₀ _ hne]
    exact congrArg _ e

/-- **C17** `centralize=True` moves the middle of the box to the origin and changes nothing else, 2d. -/
theorem C17_centralize_2d (lX lY : K) (nx ny Nx Ny : Nat) (s0 s1 : K) (start : Int)
    (h : 1 ≤ nx ∧ 1 ≤ ny) (hN : 2 ≤ Nx ∧ 2 ≤ Ny) :
    ∃ C', grid { args2 lX lY nx ny s0 s1 start with centralize := true } (.tuple [Nx, Ny]) none =
        some (C', (rgrid2 lX lY nx ny Nx Ny s0 s1 start).2) ∧
      Moved (rgrid2 lX lY nx ny Nx Ny s0 s1 start).1 C' [s0 + lX / 2, s1 + lY / 2] := by
  have e : grid { args2 lX lY nx ny s0 s1 start with centralize := true } (.tuple [Nx, Ny]) none =
    (centralizeRows (rgrid2 lX lY nx ny Nx Ny s0 s1 start).1 2).bind fun C' =>
      some (C', (rgrid2 lX lY nx ny Nx Ny s0 s1 start).2) := rfl
  rw [e, rgrid2, rgrid2_closed lX lY s0 s1 start h hN (.refl _) (.refl _)]
  obtain ⟨C', h1, h2⟩ := centralize_closed (fun a : Axis K => (a.b 0 + a.b a.n) / 2)
    [uniAxis lX nx Nx s0, uniAxis lY ny Ny s1] (by simp [uniAxis]; omega) (by simp) (by
      have c : ∀ n : Nat, 1 ≤ n → ((n : K)) ≠ 0 := fun n hn => by exact_mod_cast (by omega : n ≠ 0)
      simp only [List.forall_mem_cons, List.not_mem_nil, false_implies, implies_true, and_true]
      refine ⟨?_, ?_⟩
      · rw [uni_mean lX s0 h.1 hN.1]; simp [uniAxis, c nx h.1]; ring_nf; simp
      · rw [uni_mean lY s1 h.2 hN.2]; simp [uniAxis, c ny h.2]; ring_nf; simp)
  refine ⟨C', by rw [show (2 : Nat) = [uniAxis lX nx Nx s0, uniAxis lY ny Ny s1].length from rfl, h1]; rfl, ?_⟩
  have c : ∀ n : Nat, 1 ≤ n → ((n : K)) ≠ 0 := fun n hn => by exact_mod_cast (by omega : n ≠ 0)
  have e2 : [uniAxis lX nx Nx s0, uniAxis lY ny Ny s1].map (fun a : Axis K => (a.b 0 + a.b a.n) / 2) =
      [s0 + lX / 2, s1 + lY / 2] := by
    simp [uniAxis, c nx h.1, c ny h.2]; constructor <;> ring
  rwa [e2] at h2

/-- **C17** 3d. -/
theorem C17_centralize_3d (lX lY lZ : K) (nx ny nz Nx Ny Nz : Nat) (s0 s1 s2 : K) (start : Int)
    (h : 1 ≤ nx ∧ 1 ≤ ny ∧ 1 ≤ nz) (hN : 2 ≤ Nx ∧ 2 ≤ Ny ∧ 2 ≤ Nz) :
    ∃ C', grid { args3 lX lY lZ nx ny nz s0 s1 s2 start with centralize := true } (.tuple [Nx, Ny, Nz]) none =
        some (C', (rgrid3 lX lY lZ nx ny nz Nx Ny Nz s0 s1 s2 start).2) ∧
      Moved (rgrid3 lX lY lZ nx ny nz Nx Ny Nz s0 s1 s2 start).1 C' [s0 + lX / 2, s1 + lY / 2, s2 + lZ / 2] := by
  have e : grid { args3 lX lY lZ nx ny nz s0 s1 s2 start with centralize := true } (.tuple [Nx, Ny, Nz]) none =
    (centralizeRows (rgrid3 lX lY lZ nx ny nz Nx Ny Nz s0 s1 s2 start).1 3).bind fun C' =>
      some (C', (rgrid3 lX lY lZ nx ny nz Nx Ny Nz s0 s1 s2 start).2) := rfl
  rw [e, rgrid3, rgrid3_closed lX lY lZ s0 s1 s2 start h hN (.refl _) (.refl _)]
  have c : ∀ n : Nat, 1 ≤ n → ((n : K)) ≠ 0 := fun n hn => by exact_mod_cast (by omega : n ≠ 0)
  obtain ⟨C', h1, h2⟩ := centralize_closed (fun a : Axis K => (a.b 0 + a.b a.n) / 2)
    [uniAxis lX nx Nx s0, uniAxis lY ny Ny s1, uniAxis lZ nz Nz s2] (by simp [uniAxis]; omega) (by simp) (by
      simp only [List.forall_mem_cons, List.not_mem_nil, false_implies, implies_true, and_true]
      refine ⟨?_, ?_, ?_⟩
      · rw [uni_mean lX s0 h.1 hN.1]; simp [uniAxis, c nx h.1]; ring_nf; simp
      · rw [uni_mean lY s1 h.2.1 hN.2.1]; simp [uniAxis, c ny h.2.1]; ring_nf; simp
      · rw [uni_mean lZ s2 h.2.2 hN.2.2]; simp [uniAxis, c nz h.2.2]; ring_nf; simp)
  refine ⟨C', by
    rw [show (3 : Nat) = [uniAxis lX nx Nx s0, uniAxis lY ny Ny s1, uniAxis lZ nz Nz s2].length from rfl, h1]; rfl, ?_⟩
  have e2 : [uniAxis lX nx Nx s0, uniAxis lY ny Ny s1, uniAxis lZ nz Nz s2].map (fun a : Axis K => (a.b 0 + a.b a.n) / 2) =
      [s0 + lX / 2, s1 + lY / 2, s2 + lZ / 2] := by
    simp [uniAxis, c nx h.1, c ny h.2.1, c nz h.2.2]; refine ⟨?_, ?_, ?_⟩ <;> ring
  rwa [e2] at h2

end
end PM
