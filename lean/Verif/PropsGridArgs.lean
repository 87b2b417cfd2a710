import Verif.PropsGridNamed

/-!
# C124: what each argument of `grid` does, whatever the others are
-/

set_option linter.unusedSectionVars false
set_option linter.unusedSimpArgs false
set_option linter.unusedVariables false

namespace PM

/-! ## named shapes -/

/-- Points along the edges of the cells of a named shape. -/
def namedPoints : String → Option (List Nat)
  | "Q4" => some [2, 2]
  | "Q9" => some [3, 3]
  | "H8" => some [2, 2, 2]
  | "H27" => some [3, 3, 3]
  | _ => none

/-- Where the nodes of a named shape lie: for each node its steps along the axes, in the order of VTK. -/
def namedSteps : String → Option (List (List Nat))
  | "Q4" => some [[0, 0], [1, 0], [1, 1], [0, 1]]
  | "Q9" => some [[0, 0], [2, 0], [2, 2], [0, 2], [1, 0], [2, 1], [1, 2], [0, 1], [1, 1]]
  | "H8" => some [[0, 0, 0], [1, 0, 0], [1, 1, 0], [0, 1, 0], [0, 0, 1], [1, 0, 1], [1, 1, 1], [0, 1, 1]]
  | "H27" => some [[0, 0, 0], [2, 0, 0], [2, 2, 0], [0, 2, 0], [0, 0, 2], [2, 0, 2], [2, 2, 2], [0, 2, 2],
      [1, 0, 0], [2, 1, 0], [1, 2, 0], [0, 1, 0], [1, 0, 2], [2, 1, 2], [1, 2, 2], [0, 1, 2],
      [0, 0, 1], [2, 0, 1], [2, 2, 1], [0, 2, 1], [0, 1, 1], [2, 1, 1], [1, 0, 1], [1, 2, 1], [1, 1, 0], [1, 1, 2], [1, 1, 1]]
  | _ => none

section
variable {K : Type} [Field K]

/-- **C124** (names): a named element shape is the grid with the named numbers of points along the edges of a cell, its nodes
reordered by a path; other names are refused. -/
theorem C124_named (a : GridArgs K) (s : String) (path : Option (List Nat)) :
    grid a (.name s) path =
      match namedPoints s, namedSteps s with
      | some N, some steps => grid a (.tuple N) (some (steps.map fun x => lexNo x N))
      | _, _ => none := by
  have key : ∀ (e p : List Nat), ((a.nDime).bind fun nD => gridNamed e p { a with shift := some (a.shift.getD (List.replicate nD 0)) }) =
      grid a (.tuple e) (some p) := by
    intro e p
    unfold grid
    cases hn : a.nDime with
    | none => rfl
    | some nD =>
      have hn' : ({ a with shift := some (a.shift.getD (List.replicate nD 0)) } : GridArgs K).nDime = some nD := by
        rw [← hn]; rfl
      have hr : gridRaw { a with shift := some (a.shift.getD (List.replicate nD 0)) } nD e true = gridRaw a nD e true := by
        simp [gridRaw]
      simp only [Option.bind_some, Option.bind_eq_bind, gridNamed, gridCore, hn, hn', hr]
      cases gridRaw a nD e true with
      | none => rfl
      | some g =>
        simp only [Option.bind_some, gridFinish, gridPath, Option.bind_eq_bind]
        cases gridCenter a.centralize nD g.1 with
        | none => rfl
        | some C =>
          show Option.map (fun t => (C, t)) (transformTopology g.2 [p] p.length 0) = _
          cases transformTopology g.2 [p] p.length 0 <;> rfl
  by_cases h1 : s = "Q4"
  · subst h1; exact key [2, 2] pathQ4
  by_cases h2 : s = "Q9"
  · subst h2; exact key [3, 3] pathQ9
  by_cases h3 : s = "H8"
  · subst h3; exact key [2, 2, 2] pathH8
  by_cases h4 : s = "H27"
  · subst h4; exact key [3, 3, 3] pathH27
  have e : namedPoints s = none := by
    unfold namedPoints; split <;> first | rfl | contradiction
  rw [e]
  unfold grid
  cases a.nDime with
  | none => rfl
  | some n =>
    simp only [Option.bind_eq_bind, Option.bind_some]

/-- **C124** (default shape): with bins, leaving out the element shape is asking for two points along each edge. -/
theorem C124_default_shape (a : GridArgs K) (b : List (List K)) (hb : a.bins = some b) (n : Nat) (hn : a.nDime = some n)
    (path : Option (List Nat)) : grid a .absent path = grid a (.tuple (List.replicate n 2)) path := by
  simp [grid, gridCore, gridRaw, hn, hb]

/-- Two calls with the same raw grids give the same. -/
theorem grid_same {a b : GridArgs K} {n : Nat} (ha : a.nDime = some n) (hb : b.nDime = some n)
    (hr : ∀ e t, gridRaw a n e t = gridRaw b n e t) (hc : a.centralize = b.centralize) (e : EShape) (path : Option (List Nat)) :
    grid a e path = grid b e path := by
  have ht : ∀ l p, grid a (.tuple l) p = grid b (.tuple l) p := fun l p => by simp [grid, gridCore, ha, hb, hr, hc]
  cases e with
  | absent => simp [grid, gridCore, ha, hb, hr, hc]
  | tuple l => exact ht l path
  | name s => rw [C124_named, C124_named]; simp only [ht]

/-- **C124** (defaults): leaving out the shift is asking for zeros, leaving out the numbers of cells is asking for ones. -/
theorem C124_defaults (a : GridArgs K) (n : Nat) (hn : a.nDime = some n) (e : EShape) (path : Option (List Nat)) :
    (a.shift = none → grid a e path = grid { a with shift := some (List.replicate n 0) } e path) ∧
    (a.shape = none → grid a e path = grid { a with shape := some (List.replicate n 1) } e path) := by
  constructor
  · intro h
    refine grid_same hn ?_ ?_ ?_ e path
    · exact hn
    · intro e t; simp [gridRaw, h]
    · rfl
  · intro h
    refine grid_same hn ?_ ?_ ?_ e path
    · unfold GridArgs.nDime at hn ⊢
      rw [h] at hn
      cases ha : a.size <;> cases hb : a.bins <;> simp_all
    · intro e t; simp [gridRaw, h]
    · rfl

/-! ## path -/

/-- Node `j` of cell `i` of `T'` is node `path[j]` of cell `i` of `T`. -/
def Rewired (path : List Nat) (T T' : List (List Int)) : Prop :=
  T'.length = T.length ∧ ∀ (i : Nat) (r : List Int), T[i]? = some r → ∃ r', T'[i]? = some r' ∧ r'.length = path.length ∧
    ∀ (j p : Nat), path[j]? = some p → ∃ v, r[p]? = some v ∧ r'[j]? = some v

/-- **C124** (path): with numbers of points for an element shape, a path changes the order of the nodes in the cells and nothing else; it is
refused only if it asks for a node that cells do not have. -/
theorem C124_path (a : GridArgs K) (N path : List Nat) (C : List (List K)) (T : List (List Int))
    (h : grid a (.tuple N) none = some (C, T)) :
    (∀ C' T', grid a (.tuple N) (some path) = some (C', T') → C' = C ∧ Rewired path T T') ∧
    ((∀ r ∈ T, ∀ p ∈ path, p < r.length) → ∃ T', grid a (.tuple N) (some path) = some (C, T')) := by
  unfold grid gridCore at h ⊢
  cases hn : a.nDime with
  | none => simp [hn] at h
  | some n =>
    simp only [hn, Option.bind_eq_bind, Option.bind_some] at h ⊢
    cases hg : gridRaw a n N true with
    | none => simp [hg] at h
    | some g =>
      simp only [hg, Option.bind_some, gridFinish, gridPath, Option.bind_eq_bind] at h ⊢
      cases hc : gridCenter a.centralize n g.1 with
      | none => simp [hc] at h
      | some C0 =>
        simp only [hc, Option.bind_some] at h ⊢
        obtain ⟨rfl, rfl⟩ : C0 = C ∧ g.2 = T := by
          have := Option.some.inj h; exact ⟨congrArg Prod.fst this, congrArg Prod.snd this⟩
        rw [transform_one]
        constructor
        · intro C' T' h'
          cases hm : g.2.mapM fun cell => path.mapM fun q => cell[q]? with
          | none => rw [hm] at h'; simp at h'
          | some T1 =>
            rw [hm] at h'
            obtain ⟨rfl, rfl⟩ : C0 = C' ∧ T1 = T' := by
              have := Option.some.inj h'; exact ⟨congrArg Prod.fst this, congrArg Prod.snd this⟩
            refine ⟨rfl, mapM_length hm, ?_⟩
            intro i r hi
            obtain ⟨r', hr', hi'⟩ := mapM_get hm hi
            refine ⟨r', hi', mapM_length hr', ?_⟩
            intro j p hp
            obtain ⟨v, hv, hj⟩ := mapM_get hr' hp
            exact ⟨v, hv, hj⟩
        · intro hp
          have hin : ∀ (i : Nat) (r : List Int), g.2[i]? = some r →
              ∃ r', (path.mapM fun q => r[q]?) = some r' ∧ True := by
            intro i r hr
            obtain ⟨r', h1, -⟩ := mapM_exists (P := fun _ _ _ => True) (f := fun q => r[q]?) (l := path) (fun j q hq =>
              ⟨_, List.getElem?_eq_getElem (hp r (List.mem_of_getElem? hr) q (List.mem_of_getElem? hq)), trivial⟩)
            exact ⟨r', h1, trivial⟩
          obtain ⟨T', hT', -⟩ := mapM_exists (P := fun _ _ _ => True) hin
          exact ⟨T', by rw [hT']; rfl⟩

/-! ## shift, start and centralisation -/

/-- Arguments of a grid of dimension `d` with `N` points along the edges of a cell: bins with two or more values, or lengths with numbers of
cells. -/
structure GridCall (a : GridArgs K) (N : List Nat) (d : Nat) : Prop where
  dim : d = 2 ∨ d = 3
  points : N.length = d ∧ ∀ n ∈ N, 2 ≤ n
  shift : ∀ s, a.shift = some s → s.length = d
  size : ∀ s, a.size = some s → s.length = d
  bins : ∀ b, a.bins = some b → b.length = d ∧ ∀ x ∈ b, 2 ≤ x.length
  cells : ∀ n, a.shape = some n → n.length = d ∧ ∀ k ∈ n, 1 ≤ k
  given : a.size ≠ none ∨ a.bins ≠ none

/-- Axes moved along themselves. -/
def moveAxes (ax : List (Axis K)) (s : List K) : List (Axis K) :=
  List.zipWith (fun x t => ⟨x.n, x.N, fun i => t + x.b i⟩) ax s

theorem GridCall.nDime {a : GridArgs K} {N : List Nat} {d : Nat} (h : GridCall a N d) : a.nDime = some d := by
  unfold GridArgs.nDime
  cases hs : a.size with
  | some s => simp [h.size s hs]
  | none =>
    cases hb : a.bins with
    | some b => simp [(h.bins b hb).1]
    | none => exact absurd h.given (by simp [hs, hb])

theorem len2 {β : Type} {l : List β} (h : l.length = 2) : ∃ x y, l = [x, y] := List.length_eq_two.1 h
theorem len3 {β : Type} {l : List β} (h : l.length = 3) : ∃ x y z, l = [x, y, z] := List.length_eq_three.1 h

variable [CharZero K]

/-- The grid in closed form, for every shift and start. -/
theorem gridRaw_closed {a : GridArgs K} {N : List Nat} {d : Nat} (h : GridCall a N d) :
    ∃ B : List (Axis K), B.length = d ∧ (∀ x ∈ B, 1 ≤ x.n ∧ 2 ≤ x.N) ∧ (B.map fun x => x.N) = N ∧
      ∀ (s : List K) (st : Int) (c : Bool), s.length = d →
        gridRaw { a with shift := some s, start := st, centralize := c } d N true =
          some (gridCoords (moveAxes B s), addStart st (gridTopo (moveAxes B s))) := by
  rcases h.dim with rfl | rfl
  · obtain ⟨n, m, hN⟩ := len2 h.points.1
    have hp := h.points.2
    rw [hN] at hp
    simp only [List.forall_mem_cons, List.not_mem_nil, false_implies, implies_true, and_true] at hp
    cases hb : a.bins with
    | some b =>
      obtain ⟨x, y, hxy⟩ := len2 (h.bins b hb).1
      have hx := (h.bins b hb).2
      rw [hxy] at hx
      simp only [List.forall_mem_cons, List.not_mem_nil, false_implies, implies_true, and_true] at hx
      refine ⟨[⟨x.length - 1, n, fun i => x.getD i 0⟩, ⟨y.length - 1, m, fun i => y.getD i 0⟩], rfl, ?_, by rw [hN]; rfl, ?_⟩
      · simp only [List.forall_mem_cons, List.not_mem_nil, false_implies, implies_true, and_true]; omega
      · intro s st c hs
        obtain ⟨t, u, rfl⟩ := len2 hs
        simp only [gridRaw, hb, hxy, hN, Option.getD_some, gridBins2]
        rw [bins2_closed t u st hx hp (.refl _) (.refl _)]
        rfl
    | none =>
      cases hz : a.size with
      | none => exact absurd h.given (by simp [hb, hz])
      | some l =>
        obtain ⟨lX, lY, hl⟩ := len2 (h.size l hz)
        have hc : ∃ k q, a.shape.getD (List.replicate 2 1) = [k, q] ∧ 1 ≤ k ∧ 1 ≤ q := by
          cases hs : a.shape with
          | none => exact ⟨1, 1, rfl, le_refl _, le_refl _⟩
          | some l =>
            obtain ⟨k, q, hkq⟩ := len2 (h.cells l hs).1
            have := (h.cells l hs).2
            rw [hkq] at this
            simp only [List.forall_mem_cons, List.not_mem_nil, false_implies, implies_true, and_true] at this
            exact ⟨k, q, hkq, this⟩
        obtain ⟨k, q, hkq, hk⟩ := hc
        refine ⟨[⟨k, n, fun i => lX / (k : K) * (i : K)⟩, ⟨q, m, fun i => lY / (q : K) * (i : K)⟩], rfl, ?_, by rw [hN]; rfl, ?_⟩
        · simp only [List.forall_mem_cons, List.not_mem_nil, false_implies, implies_true, and_true]; omega
        · intro s st c hs
          obtain ⟨t, u, rfl⟩ := len2 hs
          simp only [gridRaw, hb, hz, hl, hN, hkq, Option.getD_some, if_true, rgrid2]
          rw [rgrid2_closed lX lY t u st hk hp (.refl _) (.refl _)]
          rfl
  · obtain ⟨n, m, w, hN⟩ := len3 h.points.1
    have hp := h.points.2
    rw [hN] at hp
    simp only [List.forall_mem_cons, List.not_mem_nil, false_implies, implies_true, and_true] at hp
    cases hb : a.bins with
    | some b =>
      obtain ⟨x, y, z, hxy⟩ := len3 (h.bins b hb).1
      have hx := (h.bins b hb).2
      rw [hxy] at hx
      simp only [List.forall_mem_cons, List.not_mem_nil, false_implies, implies_true, and_true] at hx
      refine ⟨[⟨x.length - 1, n, fun i => x.getD i 0⟩, ⟨y.length - 1, m, fun i => y.getD i 0⟩,
        ⟨z.length - 1, w, fun i => z.getD i 0⟩], rfl, ?_, by rw [hN]; rfl, ?_⟩
      · simp only [List.forall_mem_cons, List.not_mem_nil, false_implies, implies_true, and_true]; omega
      · intro s st c hs
        obtain ⟨t, u, v, rfl⟩ := len3 hs
        simp only [gridRaw, hb, hxy, hN, Option.getD_some, gridBins3]
        rw [bins3_closed t u v st hx hp (.refl _) (.refl _)]
        rfl
    | none =>
      cases hz : a.size with
      | none => exact absurd h.given (by simp [hb, hz])
      | some l =>
        obtain ⟨lX, lY, lZ, hl⟩ := len3 (h.size l hz)
        have hc : ∃ k q r, a.shape.getD (List.replicate 3 1) = [k, q, r] ∧ 1 ≤ k ∧ 1 ≤ q ∧ 1 ≤ r := by
          cases hs : a.shape with
          | none => exact ⟨1, 1, 1, rfl, le_refl _, le_refl _, le_refl _⟩
          | some l =>
            obtain ⟨k, q, r, hkq⟩ := len3 (h.cells l hs).1
            have := (h.cells l hs).2
            rw [hkq] at this
            simp only [List.forall_mem_cons, List.not_mem_nil, false_implies, implies_true, and_true] at this
            exact ⟨k, q, r, hkq, this⟩
        obtain ⟨k, q, r, hkq, hk⟩ := hc
        refine ⟨[⟨k, n, fun i => lX / (k : K) * (i : K)⟩, ⟨q, m, fun i => lY / (q : K) * (i : K)⟩,
          ⟨r, w, fun i => lZ / (r : K) * (i : K)⟩], rfl, ?_, by rw [hN]; rfl, ?_⟩
        · simp only [List.forall_mem_cons, List.not_mem_nil, false_implies, implies_true, and_true]; omega
        · intro s st c hs
          obtain ⟨t, u, v, rfl⟩ := len3 hs
          simp only [gridRaw, hb, hz, hl, hN, hkq, Option.getD_some, if_true, rgrid3]
          rw [rgrid3_closed lX lY lZ t u v st hk hp (.refl _) (.refl _)]
          rfl

theorem moveAxes_val (x : Axis K) (t : K) (k : Nat) :
    Axis.val ⟨x.n, x.N, fun i => t + x.b i⟩ k = x.val k + t := by
  simp only [Axis.val, Axis.pos]; ring

theorem gridVal_move (ax : List (Axis K)) : ∀ (s : List K) (xs : List Nat), s.length = ax.length →
    gridVal (moveAxes ax s) xs = List.zipWith (· + ·) (gridVal ax xs) s := by
  induction ax with
  | nil => intro s xs h; simp [moveAxes, gridVal]
  | cons a ax ih =>
    intro s xs h
    cases s with
    | nil => simp at h
    | cons t s =>
      cases xs with
      | nil => simp [moveAxes, gridVal]
      | cons x xs =>
        have := ih s xs (by simpa using h)
        simp only [moveAxes, List.zipWith_cons_cons, gridVal] at this ⊢
        rw [this, moveAxes_val]

theorem move_maps (ax : List (Axis K)) : ∀ (s : List K), s.length = ax.length →
    ((moveAxes ax s).map fun a => a.n) = (ax.map fun a => a.n) ∧ ((moveAxes ax s).map fun a => a.N) = (ax.map fun a => a.N) ∧
      (moveAxes ax s).map Axis.pts = ax.map Axis.pts ∧ ∀ is ms, gridNo (moveAxes ax s) is ms = gridNo ax is ms := by
  induction ax with
  | nil => intro s h; simp [moveAxes]
  | cons a ax ih =>
    intro s h
    cases s with
    | nil => simp at h
    | cons t s =>
      obtain ⟨h1, h2, h3, h4⟩ := ih s (by simpa using h)
      simp only [moveAxes, List.zipWith_cons_cons, List.map_cons] at h1 h2 h3 h4 ⊢
      refine ⟨by rw [h1], by rw [h2], by rw [h3]; rfl, ?_⟩
      intro is ms
      cases is <;> cases ms <;> simp [gridNo, h4, Axis.no]

theorem gridCoords_move (ax : List (Axis K)) (s : List K) (h : s.length = ax.length) :
    gridCoords (moveAxes ax s) = (gridCoords ax).map fun r => List.zipWith (· + ·) r s := by
  rw [gridCoords, gridCoords, (move_maps ax s h).2.2.1, map_gridL]
  exact gridL_congr fun xs _ => gridVal_move ax s xs h

theorem gridTopo_move (ax : List (Axis K)) (s : List K) (h : s.length = ax.length) :
    gridTopo (moveAxes ax s) = gridTopo ax := by
  obtain ⟨h1, h2, h3, h4⟩ := move_maps ax s h
  simp only [gridTopo, h1, h2, h3, h4]

/-- What the raw grid is for one shift and one start, from the grid without either. -/
theorem raw_any {a : GridArgs K} {N : List Nat} {d : Nat} (h : GridCall a N d) :
    ∃ (B : List (Axis K)) , B.length = d ∧ (∀ x ∈ B, 1 ≤ x.n ∧ 2 ≤ x.N) ∧
      ∀ (s : List K) (st : Int) (c : Bool) (p : Option (List Nat)), s.length = d →
        grid { a with shift := some s, start := st, centralize := c } (.tuple N) p =
          gridFinish c d p ((gridCoords B).map (fun r => List.zipWith (· + ·) r s), addStart st (gridTopo B)) := by
  obtain ⟨B, h1, h2, h3, h4⟩ := gridRaw_closed h
  refine ⟨B, h1, h2, ?_⟩
  intro s st c p hs
  have hn : ({ a with shift := some s, start := st, centralize := c } : GridArgs K).nDime = some d := h.nDime
  unfold grid gridCore
  simp only [hn, Option.bind_eq_bind, Option.bind_some]
  rw [h4 s st c hs, gridCoords_move B s (by omega), gridTopo_move B s (by omega)]
  rfl

/-- **C124** (shift): two grids that differ in their shifts have the same cells, and points that differ by the difference of the shifts. -/
theorem C124_shift {a : GridArgs K} {N : List Nat} {d : Nat} (h : GridCall a N d) (s s' : List K) (hs : s.length = d)
    (hs' : s'.length = d) (hc : a.centralize = false) (path : Option (List Nat)) (C : List (List K)) (T : List (List Int))
    (hg : grid { a with shift := some s } (.tuple N) path = some (C, T)) :
    ∃ C', grid { a with shift := some s' } (.tuple N) path = some (C', T) ∧ Moved C C' (List.zipWith (· - ·) s s') := by
  obtain ⟨B, h1, h2, h3⟩ := raw_any h
  have e : ∀ t : List K, ({ a with shift := some t } : GridArgs K) = { a with shift := some t, start := a.start, centralize := false } := by
    intro t; rw [← hc]
  rw [e, h3 s _ _ _ hs] at hg
  rw [e, h3 s' _ _ _ hs']
  simp only [gridFinish, gridCenter, Bool.false_eq_true, if_false, Option.bind_eq_bind, Option.bind_some] at hg ⊢
  cases hp : gridPath path (addStart a.start (gridTopo B)) with
  | none => rw [hp] at hg; simp at hg
  | some T1 =>
    rw [hp] at hg
    have hh := Option.some.inj hg
    obtain rfl : _ = C := congrArg Prod.fst hh
    obtain rfl : T1 = T := congrArg Prod.snd hh
    refine ⟨_, rfl, ?_⟩
    unfold Moved
    rw [List.map_map]
    apply List.map_congr_left
    intro r hr
    apply List.ext_getElem
    · simp; omega
    · intro i hi _
      simp only [List.getElem_zipWith, Function.comp]
      ring

theorem GridCall.shift_length {a : GridArgs K} {N : List Nat} {d : Nat} (h : GridCall a N d) :
    (a.shift.getD (List.replicate d 0)).length = d := by
  cases hs : a.shift with
  | none => simp
  | some s => exact h.shift s hs

theorem GridCall.shift_some {a : GridArgs K} {N : List Nat} {d : Nat} (h : GridCall a N d) (u : Int) (c : Bool)
    (path : Option (List Nat)) : grid { a with start := u, centralize := c } (.tuple N) path =
      grid { a with shift := some (a.shift.getD (List.replicate d 0)), start := u, centralize := c } (.tuple N) path := by
  cases hs : a.shift with
  | none =>
    have := (C124_defaults { a with start := u, centralize := c } d h.nDime (.tuple N) path).1 hs
    simpa [hs] using this
  | some s => rfl

/-- **C124** (start): the start is added to the numbers of nodes and changes nothing else. -/
theorem C124_start {a : GridArgs K} {N : List Nat} {d : Nat} (h : GridCall a N d) (st : Int) (path : Option (List Nat))
    (C : List (List K)) (T : List (List Int)) (hg : grid { a with start := 0 } (.tuple N) path = some (C, T)) :
    grid { a with start := st } (.tuple N) path = some (C, T.map (List.map (· + st))) := by
  obtain ⟨B, h1, h2, h3⟩ := raw_any h
  have hd := h.shift_length
  have e : ∀ u : Int, grid { a with start := u } (.tuple N) path =
      grid { a with shift := some (a.shift.getD (List.replicate d 0)), start := u, centralize := a.centralize } (.tuple N) path :=
    fun u => h.shift_some u a.centralize path
  rw [e, h3 _ _ _ _ hd] at hg ⊢
  simp only [gridFinish] at hg ⊢
  cases hc : gridCenter a.centralize d ((gridCoords B).map fun r => List.zipWith (· + ·) r (a.shift.getD (List.replicate d 0))) with
  | none => rw [hc] at hg; simp at hg
  | some C0 =>
    rw [hc] at hg
    simp only [Option.bind_eq_bind, Option.bind_some] at hg ⊢
    have key : ∀ t : Topo, addStart st t = (addStart 0 t).map (List.map (· + st)) := by
      intro t
      simp [addStart, Function.comp_def]
    cases path with
    | none =>
      simp only [gridPath, Option.bind_some] at hg ⊢
      have hh := Option.some.inj hg
      obtain rfl : C0 = C := congrArg Prod.fst hh
      obtain rfl : addStart 0 (gridTopo B) = T := congrArg Prod.snd hh
      rw [key]; rfl
    | some p =>
      simp only [gridPath, transform_one] at hg ⊢
      cases hm : (addStart 0 (gridTopo B)).mapM fun cell => p.mapM fun q => cell[q]? with
      | none => rw [hm] at hg; simp at hg
      | some T1 =>
        rw [hm] at hg
        have hh := Option.some.inj hg
        obtain rfl : C0 = C := congrArg Prod.fst hh
        obtain rfl : T1 = T := congrArg Prod.snd hh
        have : ((addStart st (gridTopo B)).mapM fun cell => p.mapM fun q => cell[q]?) = some (T1.map (List.map (· + st))) := by
          rw [key, mapM_eq_some_iff]
          rw [mapM_eq_some_iff] at hm
          rw [List.forall₂_map_left_iff, List.forall₂_map_right_iff]
          refine hm.imp ?_
          intro r r' hr
          rw [mapM_eq_some_iff] at hr ⊢
          rw [List.forall₂_map_right_iff]
          refine hr.imp ?_
          intro q v hq
          simp [hq]
        rw [this]; rfl

/-- Every column sums to zero. -/
def MeanZero (C : List (List K)) (d : Nat) : Prop := ∀ c < d, (C.map fun r => r.getD c 0).sum = 0

theorem centralize_any (C : List (List K)) (d : Nat) (hd : 2 ≤ d) (hC : C ≠ []) (hr : ∀ r ∈ C, r.length = d) :
    ∃ C' v, centralizeRows C d = some C' ∧ v.length = d ∧ Moved C C' v ∧ MeanZero C' d := by
  have hne : ((C.length : Nat) : K) ≠ 0 := by
    have : C.length ≠ 0 := by simpa using hC
    exact_mod_cast this
  refine ⟨_, (List.range d).map fun c => (C.map fun r => r.getD c 0).sum / (C.length : Nat),
    by rw [centralizeRows, if_neg (by omega)], by simp, ?_, ?_⟩
  · unfold Moved
    apply List.map_congr_left
    intro r h
    have hl := hr r h
    apply List.ext_getElem
    · simp [hl]
    · intro c h1 h2
      simp
  · intro c hc
    rw [List.map_map]
    have : C.map ((fun r : List K => r.getD c 0) ∘ fun r => r.zipIdx.map fun x => x.1 - (C.map fun r => r.getD x.2 0).sum / (C.length : Nat)) =
        C.map fun r => r.getD c 0 - (C.map fun r => r.getD c 0).sum / (C.length : Nat) := by
      apply List.map_congr_left
      intro r h
      have hl := hr r h
      have hc' : c < r.length := by omega
      simp [List.getD_eq_getElem?_getD, List.getElem?_map, List.getElem?_zipIdx, List.getElem?_eq_getElem hc']
    rw [this]
    have hs : ∀ (l : List (List K)) (f : List K → K) (m : K), (l.map fun r => f r - m).sum = (l.map f).sum - l.length * m := by
      intro l f m
      induction l with
      | nil => simp
      | cons x l ih => simp only [List.map_cons, List.sum_cons, ih, List.length_cons]; push_cast; ring
    rw [hs, mul_div_cancel₀ _ hne, sub_self]

/-- **C124** (centralisation): `centralize=True` moves all points by one vector so that their mean is the origin, and changes nothing else. -/
theorem C124_centralize {a : GridArgs K} {N : List Nat} {d : Nat} (h : GridCall a N d) (path : Option (List Nat))
    (C : List (List K)) (T : List (List Int)) (hg : grid { a with centralize := false } (.tuple N) path = some (C, T)) :
    ∃ C' v, grid { a with centralize := true } (.tuple N) path = some (C', T) ∧ v.length = d ∧ Moved C C' v ∧ MeanZero C' d := by
  obtain ⟨B, h1, h2, h3⟩ := raw_any h
  have hd := h.shift_length
  have e : ∀ c : Bool, grid { a with centralize := c } (.tuple N) path =
      grid { a with shift := some (a.shift.getD (List.replicate d 0)), start := a.start, centralize := c } (.tuple N) path :=
    fun c => h.shift_some a.start c path
  rw [e, h3 _ _ _ _ hd] at hg ⊢
  generalize hC0 : ((gridCoords B).map fun r => List.zipWith (· + ·) r (a.shift.getD (List.replicate d 0))) = C0 at hg ⊢
  have hlen : ∀ r ∈ C0, r.length = d := by
    intro r hr
    rw [← hC0] at hr
    obtain ⟨r0, hr0, rfl⟩ := List.mem_map.1 hr
    obtain ⟨xs, hxs, rfl⟩ := mem_gridL.1 hr0
    rw [List.length_zipWith, length_gridVal B hxs]
    omega
  have hne : C0 ≠ [] := by
    rw [← hC0]
    intro h0
    have h0 := congrArg List.length h0
    have h4 : (gridCoords B).length = (B.map Axis.pts).prod := length_gridL _ _
    rw [List.length_map, h4] at h0
    have key : ∀ l : List (Axis K), (l.map Axis.pts).prod ≠ 0 := by
      intro l
      induction l with
      | nil => simp
      | cons a l ih => rw [List.map_cons, List.prod_cons]; exact Nat.mul_ne_zero (by simp [Axis.pts]) ih
    exact key B (by simpa using h0)
  obtain ⟨C', v, g1, g2, g3, g4⟩ := centralize_any C0 d (by rcases h.dim with rfl | rfl <;> omega) hne hlen
  simp only [gridFinish, gridCenter, Bool.false_eq_true, if_false, if_true, Option.bind_eq_bind, Option.bind_some, g1] at hg ⊢
  cases hp : gridPath path (addStart a.start (gridTopo B)) with
  | none => rw [hp] at hg; simp at hg
  | some T1 =>
    rw [hp] at hg
    have hh := Option.some.inj hg
    obtain rfl : C0 = C := congrArg Prod.fst hh
    obtain rfl : T1 = T := congrArg Prod.snd hh
    exact ⟨C', v, rfl, g2, g3, g4⟩

/-! ## bins -/

/-- Bounds of `n` equal intervals of a length `l`. -/
def evenBins (l : K) (n : Nat) : List K := (List.range (n + 1)).map fun i : Nat => l * (i : K) / (n : K)

theorem val_congr {a b : Axis K} (hn : a.n = b.n) (hN : a.N = b.N) (hN2 : 2 ≤ a.N) (h : ∀ i ≤ a.n, a.b i = b.b i) {x : Nat}
    (hx : x < a.pts) : a.val x = b.val x := by
  simp only [Axis.val, ← hN]
  have hpos : 0 < a.N - 1 := by omega
  have hle : x / (a.N - 1) ≤ a.n := by
    rw [Nat.div_le_iff_le_mul_add_pred hpos]
    unfold Axis.pts at hx
    rw [Nat.mul_comm]
    omega
  by_cases h0 : x % (a.N - 1) = 0
  · rw [h0]
    simp only [Axis.pos]
    rw [h _ hle]; simp
  · have hlt : x / (a.N - 1) < a.n := by
      rcases Nat.lt_or_ge (x / (a.N - 1)) a.n with h1 | h1
      · exact h1
      · exfalso
        have h2 : x / (a.N - 1) = a.n := by omega
        have h3 := Nat.div_add_mod x (a.N - 1)
        rw [h2, Nat.mul_comm] at h3
        unfold Axis.pts at hx
        omega
    simp only [Axis.pos]
    rw [h _ hle, h _ hlt, hN]

theorem gridVal_congr : ∀ {ax bx : List (Axis K)}, List.Forall₂ (fun a b => a.n = b.n ∧ a.N = b.N ∧ 2 ≤ a.N ∧ ∀ i ≤ a.n, a.b i = b.b i) ax bx →
    ∀ {xs : List Nat}, Within xs (ax.map Axis.pts) → gridVal ax xs = gridVal bx xs := by
  intro ax bx h
  induction h with
  | nil => intro xs _; cases xs <;> rfl
  | cons h _ ih =>
    intro xs hx
    cases xs with
    | nil => rfl
    | cons x xs => rw [gridVal, gridVal, val_congr h.1 h.2.1 h.2.2.1 h.2.2.2 hx.1, ih hx.2]

theorem grid_congr {ax bx : List (Axis K)}
    (h : List.Forall₂ (fun a b => a.n = b.n ∧ a.N = b.N ∧ 2 ≤ a.N ∧ ∀ i ≤ a.n, a.b i = b.b i) ax bx) :
    gridCoords ax = gridCoords bx ∧ gridTopo ax = gridTopo bx := by
  have key : (ax.map fun a => a.n) = (bx.map fun a => a.n) ∧ (ax.map fun a => a.N) = (bx.map fun a => a.N) ∧
      ax.map Axis.pts = bx.map Axis.pts ∧ ∀ is ms, gridNo ax is ms = gridNo bx is ms := by
    induction h with
    | nil => simp
    | cons h _ ih =>
      obtain ⟨h1, h2, h3, h4⟩ := ih
      refine ⟨by simp [h.1, h1], by simp [h.2.1, h2], by simp [Axis.pts, h.1, h.2.1, h3], ?_⟩
      intro is ms
      cases is <;> cases ms <;> simp [gridNo, h4, Axis.no, h.2.1]
  obtain ⟨h1, h2, h3, h4⟩ := key
  refine ⟨?_, by simp only [gridTopo, h1, h2, h3, h4]⟩
  rw [gridCoords, gridCoords, ← h3]
  exact gridL_congr fun xs hx => gridVal_congr h hx

theorem evenBins_axis (l : K) {n N : Nat} (s : K) (hn : 1 ≤ n) (hN : 2 ≤ N) :
    (uniAxis l n N s).n = (binAxis (evenBins l n) N s).n ∧ (uniAxis l n N s).N = (binAxis (evenBins l n) N s).N ∧
      2 ≤ (uniAxis l n N s).N ∧ ∀ i ≤ (uniAxis l n N s).n, (uniAxis l n N s).b i = (binAxis (evenBins l n) N s).b i := by
  refine ⟨by simp [uniAxis, binAxis, evenBins], rfl, hN, ?_⟩
  intro i hi
  simp only [uniAxis] at hi
  have : i < n + 1 := by omega
  simp [uniAxis, binAxis, evenBins, List.getD_eq_getElem?_getD, List.getElem?_range this]
  ring

/-- **C124** (bins): lengths with numbers of cells give the grid that bins of equal intervals give: the same points in the same order, and
the same cells. -/
theorem C124_bins (a : GridArgs K) (size : List K) (shape : List Nat) (h : shape.length = size.length)
    (hd : size.length = 2 ∨ size.length = 3) (hs : ∀ n ∈ shape, 1 ≤ n) (N : List Nat) (hN : ∀ n ∈ N, 2 ≤ n)
    (path : Option (List Nat)) :
    grid { a with size := some size, shape := some shape, bins := none } (.tuple N) path =
      grid { a with size := none, shape := none, bins := some (List.zipWith evenBins size shape) } (.tuple N) path := by
  have hn1 : ({ a with size := some size, shape := some shape, bins := none } : GridArgs K).nDime = some size.length := rfl
  have hn2 : ({ a with size := none, shape := none, bins := some (List.zipWith evenBins size shape) } : GridArgs K).nDime =
      some size.length := by simp [GridArgs.nDime, h]
  unfold grid gridCore
  simp only [hn1, hn2, Option.bind_eq_bind, Option.bind_some]
  congr 1
  rcases hd with hd | hd
  · obtain ⟨lX, lY, rfl⟩ := len2 hd
    obtain ⟨n, m, rfl⟩ := len2 (h.trans hd)
    simp only [List.forall_mem_cons, List.not_mem_nil, false_implies, implies_true, and_true] at hs
    simp only [gridRaw, Option.getD_some, if_true, List.zipWith_cons_cons, List.zipWith_nil_right]
    generalize a.shift.getD (List.replicate [lX, lY].length 0) = sh
    rcases N with _ | ⟨N1, _ | ⟨N2, _ | ⟨N3, N⟩⟩⟩ <;> rcases sh with _ | ⟨t, _ | ⟨u, _ | ⟨v, sh⟩⟩⟩ <;> try rfl
    simp only [List.forall_mem_cons, List.not_mem_nil, false_implies, implies_true, and_true] at hN
    simp only [rgrid2, gridBins2]
    rw [rgrid2_closed lX lY t u a.start hs hN (.refl _) (.refl _),
      bins2_closed t u a.start (by simp [evenBins]; omega) hN (.refl _) (.refl _)]
    have := grid_congr (.cons (evenBins_axis lX t hs.1 hN.1) (.cons (evenBins_axis lY u hs.2 hN.2) .nil))
    rw [this.1, this.2]
  · obtain ⟨lX, lY, lZ, rfl⟩ := len3 hd
    obtain ⟨n, m, k, rfl⟩ := len3 (h.trans hd)
    simp only [List.forall_mem_cons, List.not_mem_nil, false_implies, implies_true, and_true] at hs
    simp only [gridRaw, Option.getD_some, if_true, List.zipWith_cons_cons, List.zipWith_nil_right]
    generalize a.shift.getD (List.replicate [lX, lY, lZ].length 0) = sh
    rcases N with _ | ⟨N1, _ | ⟨N2, _ | ⟨N3, _ | ⟨N4, N⟩⟩⟩⟩ <;>
      rcases sh with _ | ⟨t, _ | ⟨u, _ | ⟨v, _ | ⟨w, sh⟩⟩⟩⟩ <;> try rfl
    simp only [List.forall_mem_cons, List.not_mem_nil, false_implies, implies_true, and_true] at hN
    simp only [rgrid3, gridBins3]
    rw [rgrid3_closed lX lY lZ t u v a.start hs hN (.refl _) (.refl _),
      bins3_closed t u v a.start (by simp [evenBins]; omega) hN (.refl _) (.refl _)]
    have := grid_congr (.cons (evenBins_axis lX t hs.1 hN.1) (.cons (evenBins_axis lY u hs.2.1 hN.2.1)
      (.cons (evenBins_axis lZ v hs.2.2 hN.2.2) .nil)))
    rw [this.1, this.2]

/-- **C124** (bins): bins decide; lengths and numbers of cells given beside them have no effect. -/
theorem C124_bins_decide (a : GridArgs K) (b : List (List K)) (size : List K) (shape : Option (List Nat))
    (h : size.length = b.length) (e : EShape) (path : Option (List Nat)) :
    grid { a with size := some size, shape := shape, bins := some b } e path =
      grid { a with size := none, shape := none, bins := some b } e path := by
  refine grid_same (n := b.length) ?_ ?_ ?_ ?_ e path
  · simp [GridArgs.nDime, h]
  · rfl
  · intro e t; simp [gridRaw]
  · rfl

end

/-- The statement about paths fails for named shapes: the path is dropped. -/
theorem C124_path_named_false :
    ∃ (C : List (List Rat)) (T : List (List Int)) (C' : List (List Rat)) (T' : List (List Int)),
      grid ({ size := some [1, 1], shape := some [1, 1] } : GridArgs Rat) (.name "Q4") none = some (C, T) ∧
      grid ({ size := some [1, 1], shape := some [1, 1] } : GridArgs Rat) (.name "Q4") (some [1, 0, 2, 3]) = some (C', T') ∧
      ¬ Rewired [1, 0, 2, 3] T T' := by
  have e : grid ({ size := some [1, 1], shape := some [1, 1] } : GridArgs Rat) (.name "Q4") none =
      some ([[0, 0], [0, 1], [1, 0], [1, 1]], [[0, 2, 3, 1]]) := by decide +kernel
  refine ⟨_, _, _, _, e, by rw [C19_path_ignored]; exact e, ?_⟩
  intro h
  obtain ⟨r', h1, -, h2⟩ := h.2 0 _ rfl
  obtain ⟨v, h3, h4⟩ := h2 0 1 rfl
  obtain rfl : [0, 2, 3, 1] = r' := Option.some.inj h1
  simp at h3 h4
  omega

/-! ## concrete cases -/

/-- A call with bins, a shift and a start. -/
def argsBins : GridArgs Rat := { bins := some [[0, 1, 3], [0, 2]], shift := some [10, 20], start := 5 }

example : GridCall argsBins [2, 3] 2 where
  dim := by decide
  points := by decide
  shift := by intro s h; cases h; rfl
  size := by intro s h; cases h
  bins := by intro b h; cases h; decide
  cells := by intro n h; cases h
  given := Or.inr (by simp [argsBins])

example : grid argsBins (.tuple [2, 2]) none =
    some ([[10, 20], [10, 22], [11, 20], [11, 22], [13, 20], [13, 22]], [[5, 6, 7, 8], [7, 8, 9, 10]]) := by decide +kernel

example : grid argsBins (.tuple [2, 2]) (some [3, 0]) =
    some ([[10, 20], [10, 22], [11, 20], [11, 22], [13, 20], [13, 22]], [[8, 5], [10, 7]]) := by decide +kernel

/-- The grid of the bins, centralised: the mean is not the middle of the box. -/
example : grid { argsBins with centralize := true } (.name "Q4") none =
    some ([[-4/3, -1], [-4/3, 1], [-1/3, -1], [-1/3, 1], [5/3, -1], [5/3, 1]], [[5, 7, 8, 6], [7, 9, 10, 8]]) := by decide +kernel

example : evenBins (6 : Rat) 3 = [0, 2, 4, 6] := by decide +kernel

end PM
