import Verif.Grid
import Verif.PropsTransform
import Mathlib.Tactic.Ring
import Mathlib.Tactic.FieldSimp
import Mathlib.Tactic.Linarith
import Mathlib.Algebra.BigOperators.Group.List.Basic

/-!
# Grids in any number of dimensions: specification vocabulary and closed forms
-/

set_option linter.unusedSectionVars false
set_option linter.unusedSimpArgs false

namespace PM

/-! ## vocabulary -/

/-- The digits `xs` are below the bounds `ds`, one by one. -/
def Within : List Nat → List Nat → Prop
  | [], [] => True
  | x :: xs, d :: ds => x < d ∧ Within xs ds
  | _, _ => False

instance : ∀ xs ds, Decidable (Within xs ds)
  | [], [] => .isTrue trivial
  | x :: xs, d :: ds =>
    have := instDecidableWithin xs ds
    inferInstanceAs (Decidable (x < d ∧ Within xs ds))
  | [], _ :: _ => .isFalse id
  | _ :: _, [] => .isFalse id

/-- Lexicographic number of the digits `xs` among all digits below `ds`; the last digit runs fastest. -/
def lexNo : List Nat → List Nat → Nat
  | x :: xs, _ :: ds => x * ds.prod + lexNo xs ds
  | _, _ => 0

/-- An axis of a grid: `n` intervals with ends `b 0, b 1, ..., b n`, each divided by `N` equidistant points. -/
structure Axis (K : Type) where
  n : Nat
  N : Nat
  b : Nat → K

section
variable {K : Type} [Field K]

/-- The `m`-th point of the `i`-th interval. -/
def Axis.pos (a : Axis K) (i m : Nat) : K := a.b i + (m : K) / ((a.N - 1 : Nat) : K) * (a.b (i + 1) - a.b i)

/-- Position of node `ms` of cell `is`. -/
def gridPos : List (Axis K) → List Nat → List Nat → List K
  | a :: ax, i :: is, m :: ms => a.pos i m :: gridPos ax is ms
  | _, _, _ => []

/-- `C`, `T` are the points and the cells of the tensor product of the axes `ax`, points numbered from `start`. -/
structure IsGrid (ax : List (Axis K)) (start : Int) (C : List (List K)) (T : List (List Int)) : Prop where
  points : C.length = (ax.map fun a => a.n * (a.N - 1) + 1).prod
  cells : T.length = (ax.map fun a => a.n).prod
  width : ∀ r ∈ T, r.length = (ax.map fun a => a.N).prod
  range : ∀ r ∈ T, ∀ x ∈ r, start ≤ x ∧ x < start + C.length
  used : ∀ n, n < C.length → ∃ r ∈ T, (n : Int) + start ∈ r
  nodup : ∀ r ∈ T, r.Nodup
  place : ∀ is ms, Within is (ax.map fun a => a.n) → Within ms (ax.map fun a => a.N) →
    ∃ n : Nat, nodeAt T (lexNo is (ax.map fun a => a.n)) (lexNo ms (ax.map fun a => a.N)) = some ((n : Int) + start) ∧
      C[n]? = some (gridPos ax is ms)

end

/-! ## closed forms -/

/-- `f` of all digits below `ds`, in lexicographic order. -/
def gridL {β : Type} : List Nat → (List Nat → β) → List β
  | [], f => [f []]
  | d :: ds, f => (List.range d).flatMap fun x => gridL ds fun xs => f (x :: xs)

theorem length_gridL {β : Type} (ds : List Nat) (f : List Nat → β) : (gridL ds f).length = ds.prod := by
  induction ds generalizing f with
  | nil => rfl
  | cons d ds ih =>
    rw [gridL, length_flatMap_block (n := ds.prod) fun x _ => ih _]
    simp [Nat.mul_comm]

theorem lexNo_lt {xs ds : List Nat} (h : Within xs ds) : lexNo xs ds < ds.prod := by
  induction ds generalizing xs with
  | nil => cases xs <;> simp [Within, lexNo] at *
  | cons d ds ih =>
    cases xs with
    | nil => simp [Within] at h
    | cons x xs =>
      have := ih h.2
      have h1 := h.1
      rw [lexNo, List.prod_cons]
      calc x * ds.prod + lexNo xs ds < x * ds.prod + ds.prod := by omega
        _ = (x + 1) * ds.prod := by ring
        _ ≤ d * ds.prod := Nat.mul_le_mul_right _ h1

theorem gridL_get {β : Type} {xs ds : List Nat} (h : Within xs ds) (f : List Nat → β) :
    (gridL ds f)[lexNo xs ds]? = some (f xs) := by
  induction ds generalizing xs f with
  | nil => cases xs <;> simp [Within, lexNo, gridL] at *
  | cons d ds ih =>
    cases xs with
    | nil => simp [Within] at h
    | cons x xs =>
      rw [gridL, lexNo, getElem?_flatMap_block (fun _ _ => length_gridL _ _) (lexNo_lt h.2)]
      rw [List.getElem?_range h.1]
      exact ih h.2 _

theorem lexNo_inj {xs ys ds : List Nat} (hx : Within xs ds) (hy : Within ys ds) (h : lexNo xs ds = lexNo ys ds) :
    xs = ys := by
  induction ds generalizing xs ys with
  | nil => cases xs <;> cases ys <;> simp [Within] at *
  | cons d ds ih =>
    cases xs with
    | nil => simp [Within] at hx
    | cons x xs =>
      cases ys with
      | nil => simp [Within] at hy
      | cons y ys =>
        obtain ⟨h1, h2⟩ := mixed_radix_inj (lexNo_lt hx.2) (lexNo_lt hy.2) h
        rw [h1, ih hx.2 hy.2 h2]

theorem lexNo_surj {ds : List Nat} {r : Nat} (h : r < ds.prod) : ∃ xs, Within xs ds ∧ lexNo xs ds = r := by
  induction ds generalizing r with
  | nil => exact ⟨[], trivial, by simp [lexNo] at *; omega⟩
  | cons d ds ih =>
    rw [List.prod_cons, Nat.mul_comm] at h
    obtain ⟨i, k, hi, hk, rfl⟩ := mixed_radix_exists h
    obtain ⟨xs, h1, rfl⟩ := ih hk
    exact ⟨i :: xs, ⟨hi, h1⟩, rfl⟩

theorem mem_gridL {β : Type} {ds : List Nat} {f : List Nat → β} {v : β} :
    v ∈ gridL ds f ↔ ∃ xs, Within xs ds ∧ f xs = v := by
  constructor
  · intro h
    obtain ⟨r, hr, rfl⟩ := List.mem_iff_getElem.1 h
    obtain ⟨xs, h1, rfl⟩ := lexNo_surj (by rwa [length_gridL] at hr : r < ds.prod)
    refine ⟨xs, h1, ?_⟩
    have := gridL_get h1 f
    rw [List.getElem?_eq_getElem hr] at this
    exact (Option.some.inj this).symm
  · rintro ⟨xs, h, rfl⟩
    exact List.mem_of_getElem? (gridL_get h f)

theorem gridL_nodup {β : Type} {ds : List Nat} {f : List Nat → β}
    (h : ∀ xs ys, Within xs ds → Within ys ds → f xs = f ys → xs = ys) : (gridL ds f).Nodup := by
  rw [List.nodup_iff_injective_get]
  rintro ⟨a, ha⟩ ⟨b, hb⟩ hab
  obtain ⟨xs, h1, rfl⟩ := lexNo_surj (by rwa [length_gridL] at ha : a < ds.prod)
  obtain ⟨ys, h2, rfl⟩ := lexNo_surj (by rwa [length_gridL] at hb : b < ds.prod)
  simp only [List.get_eq_getElem] at hab
  have e1 := gridL_get h1 f
  have e2 := gridL_get h2 f
  rw [List.getElem?_eq_getElem ha] at e1
  rw [List.getElem?_eq_getElem hb] at e2
  have : f xs = f ys := by rw [← Option.some.inj e1, ← Option.some.inj e2, hab]
  have := h _ _ h1 h2 this
  subst this; rfl

theorem gridL_congr {β : Type} {ds : List Nat} {f g : List Nat → β} (h : ∀ xs, Within xs ds → f xs = g xs) :
    gridL ds f = gridL ds g := by
  induction ds generalizing f g with
  | nil => simp [gridL, h [] trivial]
  | cons d ds ih =>
    rw [gridL, gridL]
    apply List.flatMap_congr
    intro x hx
    exact ih fun xs hxs => h _ ⟨List.mem_range.1 hx, hxs⟩

theorem map_gridL {β γ : Type} (ds : List Nat) (f : List Nat → β) (g : β → γ) :
    (gridL ds f).map g = gridL ds fun xs => g (f xs) := by
  induction ds generalizing f with
  | nil => rfl
  | cons d ds ih => simp [gridL, List.map_flatMap, ih]

/-! ### the axis index -/

section
variable {K : Type}

/-- Points on an axis. -/
def Axis.pts (a : Axis K) : Nat := a.n * (a.N - 1) + 1

/-- Number of the `m`-th point of the `i`-th interval. -/
def Axis.no (a : Axis K) (i m : Nat) : Nat := (a.N - 1) * i + m

theorem Axis.no_lt {a : Axis K} {i m : Nat} (hi : i < a.n) (hm : m < a.N) : a.no i m < a.pts := by
  unfold Axis.no Axis.pts
  have : (a.N - 1) * (i + 1) ≤ (a.N - 1) * a.n := Nat.mul_le_mul_left _ hi
  rw [Nat.mul_comm a.n]
  rw [Nat.mul_succ] at this
  omega

theorem Axis.no_surj {a : Axis K} (hn : 1 ≤ a.n) (hN : 1 ≤ a.N) {x : Nat} (hx : x < a.pts) :
    ∃ i m, i < a.n ∧ m < a.N ∧ a.no i m = x := by
  unfold Axis.pts at hx
  unfold Axis.no
  rcases Nat.lt_or_ge x (a.n * (a.N - 1)) with h | h
  · rw [Nat.mul_comm] at h
    obtain ⟨i, k, hi, hk, rfl⟩ := mixed_radix_exists h
    exact ⟨i, k, hi, by omega, by rw [Nat.mul_comm]⟩
  · have : x = a.n * (a.N - 1) := by omega
    refine ⟨a.n - 1, a.N - 1, by omega, by omega, ?_⟩
    subst this
    obtain ⟨k, hk⟩ : ∃ k, a.n = k + 1 := ⟨a.n - 1, by omega⟩
    rw [hk]; simp; ring

/-- Numbers of nodes `ms` of cell `is` on the axes. -/
def gridNo : List (Axis K) → List Nat → List Nat → List Nat
  | a :: ax, i :: is, m :: ms => a.no i m :: gridNo ax is ms
  | _, _, _ => []

theorem within_gridNo {ax : List (Axis K)} {is ms : List Nat} (hi : Within is (ax.map fun a => a.n))
    (hm : Within ms (ax.map fun a => a.N)) : Within (gridNo ax is ms) (ax.map Axis.pts) := by
  induction ax generalizing is ms with
  | nil => cases is <;> cases ms <;> simp [Within, gridNo] at *
  | cons a ax ih =>
    cases is with
    | nil => simp [Within] at hi
    | cons i is =>
      cases ms with
      | nil => simp [Within] at hm
      | cons m ms => exact ⟨Axis.no_lt hi.1 hm.1, ih hi.2 hm.2⟩

theorem gridNo_inj {ax : List (Axis K)} {is ms ms' : List Nat} (hi : Within is (ax.map fun a => a.n))
    (hm : Within ms (ax.map fun a => a.N)) (hm' : Within ms' (ax.map fun a => a.N))
    (h : gridNo ax is ms = gridNo ax is ms') : ms = ms' := by
  induction ax generalizing is ms ms' with
  | nil => cases ms <;> cases ms' <;> simp [Within] at *
  | cons a ax ih =>
    cases is with
    | nil => simp [Within] at hi
    | cons i is =>
      cases ms with
      | nil => simp [Within] at hm
      | cons m ms =>
        cases ms' with
        | nil => simp [Within] at hm'
        | cons m' ms' =>
          simp only [gridNo, List.cons.injEq] at h
          have h1 : m = m' := by have := h.1; unfold Axis.no at this; omega
          rw [h1, ih hi.2 hm.2 hm'.2 h.2]

theorem gridNo_surj {ax : List (Axis K)} (hax : ∀ a ∈ ax, 1 ≤ a.n ∧ 1 ≤ a.N) {xs : List Nat}
    (h : Within xs (ax.map Axis.pts)) : ∃ is ms, Within is (ax.map fun a => a.n) ∧ Within ms (ax.map fun a => a.N) ∧
      gridNo ax is ms = xs := by
  induction ax generalizing xs with
  | nil => cases xs <;> simp [Within] at h; exact ⟨[], [], trivial, trivial, rfl⟩
  | cons a ax ih =>
    cases xs with
    | nil => simp [Within] at h
    | cons x xs =>
      obtain ⟨is, ms, h1, h2, h3⟩ := ih (fun b hb => hax b (List.mem_cons_of_mem _ hb)) h.2
      obtain ⟨ha, hb⟩ := hax a List.mem_cons_self
      obtain ⟨i, m, g1, g2, g3⟩ := Axis.no_surj ha hb h.1
      exact ⟨i :: is, m :: ms, ⟨g1, h1⟩, ⟨g2, h2⟩, by rw [gridNo, g3, h3]⟩

variable [Field K]

/-- Coordinate of a point of the axis. -/
def Axis.val (a : Axis K) (x : Nat) : K := a.pos (x / (a.N - 1)) (x % (a.N - 1))

theorem Axis.val_no {a : Axis K} [CharZero K] (hN : 2 ≤ a.N) {i m : Nat} (hm : m < a.N) :
    a.val (a.no i m) = a.pos i m := by
  have hpos : 0 < a.N - 1 := by omega
  unfold Axis.val Axis.no
  rcases Nat.lt_or_ge m (a.N - 1) with h | h
  · rw [Nat.mul_add_div hpos, Nat.div_eq_of_lt h, Nat.mul_add_mod, Nat.mod_eq_of_lt h, Nat.add_zero]
  · have : m = a.N - 1 := by omega
    subst this
    rw [Nat.mul_add_div hpos, Nat.div_self hpos, Nat.mul_add_mod, Nat.mod_self]
    have h0 : ((a.N - 1 : Nat) : K) ≠ 0 := by exact_mod_cast (by omega : a.N - 1 ≠ 0)
    unfold Axis.pos
    rw [div_self h0]
    simp

/-- Coordinates of a point of the grid. -/
def gridVal : List (Axis K) → List Nat → List K
  | a :: ax, x :: xs => a.val x :: gridVal ax xs
  | _, _ => []

theorem gridVal_no [CharZero K] {ax : List (Axis K)} (hax : ∀ a ∈ ax, 2 ≤ a.N) {is ms : List Nat}
    (hi : Within is (ax.map fun a => a.n)) (hm : Within ms (ax.map fun a => a.N)) :
    gridVal ax (gridNo ax is ms) = gridPos ax is ms := by
  induction ax generalizing is ms with
  | nil => cases is <;> cases ms <;> simp [Within, gridNo, gridVal, gridPos] at *
  | cons a ax ih =>
    cases is with
    | nil => simp [Within] at hi
    | cons i is =>
      cases ms with
      | nil => simp [Within] at hm
      | cons m ms =>
        rw [gridNo, gridVal, gridPos, Axis.val_no (hax a List.mem_cons_self) hm.1,
          ih (fun b hb => hax b (List.mem_cons_of_mem _ hb)) hi.2 hm.2]

theorem length_gridVal (ax : List (Axis K)) {xs : List Nat} (h : Within xs (ax.map Axis.pts)) :
    (gridVal ax xs).length = ax.length := by
  induction ax generalizing xs with
  | nil => cases xs <;> simp [Within, gridVal] at *
  | cons a ax ih =>
    cases xs with
    | nil => simp [Within] at h
    | cons x xs => simp [gridVal, ih h.2]

/-- The points. -/
def gridCoords (ax : List (Axis K)) : List (List K) := gridL (ax.map Axis.pts) (gridVal ax)

/-- The cells. -/
def gridTopo (ax : List (Axis K)) : Topo :=
  gridL (ax.map fun a => a.n) fun is => gridL (ax.map fun a => a.N) fun ms =>
    lexNo (gridNo ax is ms) (ax.map Axis.pts)

theorem pts_eq (ax : List (Axis K)) : (ax.map fun a => a.n * (a.N - 1) + 1) = ax.map Axis.pts := rfl

theorem nodeAt_gridTopo {ax : List (Axis K)} {is ms : List Nat} (hi : Within is (ax.map fun a => a.n))
    (hm : Within ms (ax.map fun a => a.N)) :
    nodeAt (gridTopo ax) (lexNo is (ax.map fun a => a.n)) (lexNo ms (ax.map fun a => a.N)) =
      some (lexNo (gridNo ax is ms) (ax.map Axis.pts)) := by
  rw [nodeAt, gridTopo, gridL_get hi]
  exact gridL_get hm _

theorem gridCoords_get {ax : List (Axis K)} [CharZero K] (hax : ∀ a ∈ ax, 2 ≤ a.N) {is ms : List Nat}
    (hi : Within is (ax.map fun a => a.n)) (hm : Within ms (ax.map fun a => a.N)) :
    (gridCoords ax)[lexNo (gridNo ax is ms) (ax.map Axis.pts)]? = some (gridPos ax is ms) := by
  rw [gridCoords, gridL_get (within_gridNo hi hm), gridVal_no hax hi hm]

theorem isGrid_closed [CharZero K] (ax : List (Axis K)) (hax : ∀ a ∈ ax, 1 ≤ a.n ∧ 2 ≤ a.N) (start : Int) :
    IsGrid ax start (gridCoords ax) (addStart start (gridTopo ax)) where
  points := length_gridL _ _
  cells := by rw [addStart, List.length_map, gridTopo, length_gridL]
  width := by
    intro r hr
    simp only [addStart, List.mem_map] at hr
    obtain ⟨r, hr, rfl⟩ := hr
    obtain ⟨is, _, rfl⟩ := mem_gridL.1 hr
    rw [List.length_map, length_gridL]
  range := by
    intro r hr x hx
    simp only [addStart, List.mem_map] at hr
    obtain ⟨r, hr, rfl⟩ := hr
    obtain ⟨is, hi, rfl⟩ := mem_gridL.1 hr
    obtain ⟨n, hn, rfl⟩ := List.mem_map.1 hx
    obtain ⟨ms, hm, rfl⟩ := mem_gridL.1 hn
    have := lexNo_lt (within_gridNo hi hm)
    rw [gridCoords, length_gridL]
    omega
  used := by
    intro n hn
    rw [gridCoords, length_gridL] at hn
    obtain ⟨xs, h1, rfl⟩ := lexNo_surj hn
    obtain ⟨is, ms, hi, hm, rfl⟩ := gridNo_surj (fun a ha => ⟨(hax a ha).1, by have := (hax a ha).2; omega⟩) h1
    refine ⟨_, List.mem_map.2 ⟨_, mem_gridL.2 ⟨is, hi, rfl⟩, rfl⟩, ?_⟩
    exact List.mem_map.2 ⟨_, mem_gridL.2 ⟨ms, hm, rfl⟩, rfl⟩
  nodup := by
    intro r hr
    simp only [addStart, List.mem_map] at hr
    obtain ⟨r, hr, rfl⟩ := hr
    obtain ⟨is, hi, rfl⟩ := mem_gridL.1 hr
    rw [map_gridL]
    apply gridL_nodup
    intro ms ms' hm hm' h
    have h : lexNo (gridNo ax is ms) (ax.map Axis.pts) = lexNo (gridNo ax is ms') (ax.map Axis.pts) := by omega
    exact gridNo_inj hi hm hm' (lexNo_inj (within_gridNo hi hm) (within_gridNo hi hm') h)
  place := by
    intro is ms hi hm
    refine ⟨_, ?_, gridCoords_get (fun a ha => (hax a ha).2) hi hm⟩
    have := nodeAt_gridTopo hi hm
    unfold nodeAt at this ⊢
    rw [addStart, List.getElem?_map]
    cases h : (gridTopo ax)[lexNo is (ax.map fun a => a.n)]? with
    | none => rw [h] at this; simp at this
    | some r => rw [h] at this; simpa using this

/-- Writes of coordinates that put the position of node `ms` of cell `is` at its number, for all nodes and cells. -/
structure CoordWrites (ax : List (Axis K)) (w : List ((Nat × Nat) × K)) : Prop where
  sound : ∀ x ∈ w, ∃ is ms, Within is (ax.map fun a => a.n) ∧ Within ms (ax.map fun a => a.N) ∧
    x.1.1 = lexNo (gridNo ax is ms) (ax.map Axis.pts) ∧ (gridPos ax is ms)[x.1.2]? = some x.2
  complete : ∀ is ms c v, Within is (ax.map fun a => a.n) → Within ms (ax.map fun a => a.N) →
    (gridPos ax is ms)[c]? = some v → ((lexNo (gridNo ax is ms) (ax.map Axis.pts), c), v) ∈ w

/-- Likewise for the topology, with all numbers increased by `o`. -/
structure TopoWrites (ax : List (Axis K)) (o : Nat) (w : List ((Nat × Nat) × Nat)) : Prop where
  sound : ∀ x ∈ w, ∃ is ms, Within is (ax.map fun a => a.n) ∧ Within ms (ax.map fun a => a.N) ∧
    x = ((lexNo is (ax.map fun a => a.n), lexNo ms (ax.map fun a => a.N)), lexNo (gridNo ax is ms) (ax.map Axis.pts) + o)
  complete : ∀ is ms, Within is (ax.map fun a => a.n) → Within ms (ax.map fun a => a.N) →
    ((lexNo is (ax.map fun a => a.n), lexNo ms (ax.map fun a => a.N)), lexNo (gridNo ax is ms) (ax.map Axis.pts) + o) ∈ w

theorem CoordWrites.perm {ax : List (Axis K)} {w w' : List ((Nat × Nat) × K)} (h : CoordWrites ax w)
    (hp : w.Perm w') : CoordWrites ax w' :=
  ⟨fun x hx => h.sound x (hp.mem_iff.2 hx), fun is ms c v h1 h2 h3 => hp.mem_iff.1 (h.complete is ms c v h1 h2 h3)⟩

theorem TopoWrites.perm {ax : List (Axis K)} {o : Nat} {w w' : List ((Nat × Nat) × Nat)} (h : TopoWrites ax o w)
    (hp : w.Perm w') : TopoWrites ax o w' :=
  ⟨fun x hx => h.sound x (hp.mem_iff.2 hx), fun is ms h1 h2 => hp.mem_iff.1 (h.complete is ms h1 h2)⟩

theorem CoordWrites.rows [CharZero K] {ax : List (Axis K)} (hax : ∀ a ∈ ax, 1 ≤ a.n ∧ 2 ≤ a.N)
    {w : List ((Nat × Nat) × K)} (h : CoordWrites ax w) {n k : Nat} (hn : n = (ax.map Axis.pts).prod)
    (hk : k = ax.length) : toRows n k (runW w fun _ => 0) = gridCoords ax := by
  have h2 : ∀ a ∈ ax, 2 ≤ a.N := fun a ha => (hax a ha).2
  subst hn hk
  apply toRows_runW
  · exact length_gridL _ _
  · intro x hx
    obtain ⟨xs, hxs, rfl⟩ := mem_gridL.1 hx
    exact length_gridVal ax hxs
  · intro x hx
    obtain ⟨is, ms, hi, hm, e1, e2⟩ := h.sound x hx
    rw [nodeAt, e1, gridCoords_get h2 hi hm]
    exact e2
  · intro i j hi hj
    left
    obtain ⟨xs, h1, rfl⟩ := lexNo_surj hi
    obtain ⟨is, ms, hi', hm, rfl⟩ := gridNo_surj (fun a ha => ⟨(hax a ha).1, by have := h2 a ha; omega⟩) h1
    have hl : (gridPos ax is ms).length = ax.length := by rw [← gridVal_no h2 hi' hm]; exact length_gridVal ax h1
    obtain ⟨v, hv⟩ : ∃ v, (gridPos ax is ms)[j]? = some v := ⟨_, List.getElem?_eq_getElem (by omega)⟩
    exact ⟨_, h.complete is ms j v hi' hm hv, rfl⟩

theorem TopoWrites.rows {ax : List (Axis K)} {o : Nat} {w : List ((Nat × Nat) × Nat)} (h : TopoWrites ax o w)
    {n k : Nat} (hn : n = (ax.map fun a => a.n).prod) (hk : k = (ax.map fun a => a.N).prod) :
    toRows n k (runW w fun _ => 0) = (gridTopo ax).map (List.map (· + o)) := by
  subst hn hk
  have key : ∀ is ms, Within is (ax.map fun a => a.n) → Within ms (ax.map fun a => a.N) →
      nodeAt ((gridTopo ax).map (List.map (· + o))) (lexNo is (ax.map fun a => a.n)) (lexNo ms (ax.map fun a => a.N)) =
        some (lexNo (gridNo ax is ms) (ax.map Axis.pts) + o) := by
    intro is ms hi hm
    have := nodeAt_gridTopo hi hm
    unfold nodeAt at this ⊢
    rw [List.getElem?_map]
    cases h : (gridTopo ax)[lexNo is (ax.map fun a => a.n)]? with
    | none => rw [h] at this; simp at this
    | some r => rw [h] at this; simpa using this
  apply toRows_runW
  · rw [List.length_map, gridTopo, length_gridL]
  · intro x hx
    obtain ⟨r, hr, rfl⟩ := List.mem_map.1 hx
    obtain ⟨xs, hxs, rfl⟩ := mem_gridL.1 hr
    rw [List.length_map, length_gridL]
  · intro x hx
    obtain ⟨is, ms, hi, hm, rfl⟩ := h.sound x hx
    exact key is ms hi hm
  · intro i j hi hj
    left
    obtain ⟨is, h1, rfl⟩ := lexNo_surj hi
    obtain ⟨ms, h2, rfl⟩ := lexNo_surj hj
    exact ⟨_, h.complete is ms h1 h2, rfl⟩

end
end PM
