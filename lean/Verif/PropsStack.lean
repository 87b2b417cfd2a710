import Verif.Stack
import Verif.Spec
import Verif.TopoLemmas
import Verif.Tri
import Verif.Tet
import Mathlib.Algebra.Order.Field.Rat
import Mathlib.Tactic.LinearCombination

/-!
# Stacking topologies (C46), flipping cells (C55)
-/

namespace PM

/-! ## C46 -/

theorem unflatten_flatten {α : Type} (l : List (List α)) : unflatten l.flatten (l.map List.length) = some l := by
  induction l with
  | nil => rfl
  | cons r l ih =>
    simp only [List.flatten_cons, List.map_cons, unflatten]
    rw [if_pos (by simp), List.drop_left, List.take_left, ih]
    rfl

theorem writeAt_append {α : Type} (a b v c : List α) (h : b.length = v.length) : writeAt (a ++ (b ++ c)) a.length v = a ++ (v ++ c) := by
  unfold writeAt
  rw [List.take_left, ← List.drop_drop, List.drop_left, ← h, List.drop_left, List.append_assoc]

theorem length_flatten_regular (t : RTopo) : t.rows.flatten.length = t.rows.length * t.width := by
  have : ∀ l : Topo, (∀ r ∈ l, r.length = t.width) → l.flatten.length = l.length * t.width := by
    intro l h
    induction l with
    | nil => simp
    | cons r l ih =>
      rw [List.flatten_cons, List.length_append, ih fun r hr => h r (List.mem_cons_of_mem _ hr), h r List.mem_cons_self,
        List.length_cons]
      ring
  exact this t.rows t.regular

theorem stackSizes_spec (ts : List RTopo) (a b : Nat) :
    ts.foldl (fun s t => (s.1 + t.rows.length * t.width, s.2 + t.rows.length)) (a, b) =
      (a + ((ts.map RTopo.rows).flatten).flatten.length, b + ((ts.map RTopo.rows).flatten).length) := by
  induction ts generalizing a b with
  | nil => simp
  | cons t ts ih =>
    rw [List.foldl_cons, ih, List.map_cons, List.flatten_cons, List.flatten_append, List.length_append, List.length_append,
      length_flatten_regular]
    simp only [Prod.mk.injEq]
    omega

theorem stack_loop (ts : List RTopo) (d c zd zc : List Nat) (hd : zd.length = ((ts.map RTopo.rows).flatten).flatten.length)
    (hc : zc.length = ((ts.map RTopo.rows).flatten).length) :
    (ts.foldl StackState.step ⟨d ++ zd, c ++ zc, d.length, c.length⟩).data = d ++ ((ts.map RTopo.rows).flatten).flatten ∧
    (ts.foldl StackState.step ⟨d ++ zd, c ++ zc, d.length, c.length⟩).cuts =
      c ++ ((ts.map RTopo.rows).flatten).map List.length := by
  induction ts generalizing d c zd zc with
  | nil =>
    simp only [List.map_nil, List.flatten_nil, List.length_nil, List.length_eq_zero_iff] at hd hc
    subst hd hc
    simp
  | cons t ts ih =>
    have hw : t.rows.map List.length = List.replicate t.rows.length t.width := by
      have : ∀ l : Topo, (∀ r ∈ l, r.length = t.width) → l.map List.length = List.replicate l.length t.width := by
        intro l h
        induction l with
        | nil => rfl
        | cons r l ih2 =>
          rw [List.map_cons, ih2 fun r hr => h r (List.mem_cons_of_mem _ hr), h r List.mem_cons_self]
          rfl
      exact this t.rows t.regular
    rw [List.map_cons, List.flatten_cons, List.flatten_append, List.length_append] at hd
    rw [List.map_cons, List.flatten_cons, List.length_append] at hc
    have hd' : zd = zd.take t.rows.flatten.length ++ zd.drop t.rows.flatten.length := (List.take_append_drop _ _).symm
    have hc' : zc = zc.take t.rows.length ++ zc.drop t.rows.length := (List.take_append_drop _ _).symm
    have e : StackState.step ⟨d ++ zd, c ++ zc, d.length, c.length⟩ t =
        ⟨(d ++ t.rows.flatten) ++ zd.drop t.rows.flatten.length,
          (c ++ List.replicate t.rows.length t.width) ++ zc.drop t.rows.length,
          (d ++ t.rows.flatten).length, (c ++ List.replicate t.rows.length t.width).length⟩ := by
      unfold StackState.step
      have e1 : writeAt (d ++ zd) d.length t.rows.flatten = (d ++ t.rows.flatten) ++ zd.drop t.rows.flatten.length := by
        conv_lhs => rw [hd']
        rw [writeAt_append _ _ _ _ (by rw [List.length_take]; omega), List.append_assoc]
      have e2 : writeAt (c ++ zc) c.length (List.replicate t.rows.length t.width) =
          (c ++ List.replicate t.rows.length t.width) ++ zc.drop t.rows.length := by
        conv_lhs => rw [hc']
        rw [writeAt_append _ _ _ _ (by rw [List.length_take, List.length_replicate]; omega), List.append_assoc]
      simp only [e1, e2, List.length_append, List.length_replicate]
      rw [length_flatten_regular]
    rw [List.foldl_cons, e]
    obtain ⟨h1, h2⟩ := ih (d ++ t.rows.flatten) (c ++ List.replicate t.rows.length t.width)
      (zd.drop t.rows.flatten.length) (zc.drop t.rows.length) (by rw [List.length_drop]; omega) (by rw [List.length_drop]; omega)
    rw [h1, h2]
    simp only [List.map_cons, List.flatten_cons, List.flatten_append, List.map_append, hw, List.append_assoc, and_self]

/-- The array built from several topologies has all their cells, in order, with their node numbers. -/
theorem C46_rows (ts : List RTopo) : topologyArray ts = some ((ts.map RTopo.rows).flatten) := by
  have main : unflatten (stackData ts).data (stackData ts).cuts = some ((ts.map RTopo.rows).flatten) := by
    have hs : stackSizes ts = (((ts.map RTopo.rows).flatten).flatten.length, ((ts.map RTopo.rows).flatten).length) := by
      unfold stackSizes
      rw [stackSizes_spec]
      simp
    obtain ⟨h1, h2⟩ := stack_loop ts [] [] (List.replicate (stackSizes ts).1 0) (List.replicate (stackSizes ts).2 0)
      (by rw [List.length_replicate, hs]) (by rw [List.length_replicate, hs])
    have e1 : (stackData ts).data = ((ts.map RTopo.rows).flatten).flatten := h1
    have e2 : (stackData ts).cuts = ((ts.map RTopo.rows).flatten).map List.length := h2
    rw [e1, e2, unflatten_flatten]
  match ts, main with
  | [], h => exact h
  | [t], h => simp [topologyArray]
  | t :: s :: l, h => exact h

/-- The widths are those of the given topologies: `n` rows of `width` entries each, in order. -/
theorem C46_widths (ts : List RTopo) :
    (topologyArray ts).map (fun r => r.map List.length) = some (ts.flatMap fun t => List.replicate t.rows.length t.width) := by
  rw [C46_rows, Option.map_some]
  congr 1
  induction ts with
  | nil => rfl
  | cons t ts ih =>
    rw [List.map_cons, List.flatten_cons, List.map_append, ih, List.flatMap_cons]
    congr 1
    apply List.ext_getElem
    · simp
    · intro i h1 h2
      simp only [List.length_map] at h1
      rw [List.getElem_map, List.getElem_replicate]
      exact t.regular _ (List.getElem_mem h1)

/-- Stacking arrays puts their cells one after the other. -/
theorem C46_vstack {ts : List Topo} (h : ts ≠ []) : topoVstack ts = some ts.flatten := by
  unfold topoVstack
  rw [if_neg (by simpa using h)]
  have e1 : (ts.map List.flatten).flatten = ts.flatten.flatten := by
    induction ts with
    | nil => rfl
    | cons t ts ih =>
      cases ts with
      | nil => simp
      | cons s l => rw [List.map_cons, List.flatten_cons, ih (by simp), List.flatten_cons (l := t), List.flatten_append]
  have e2 : (ts.map fun t => t.map List.length).flatten = ts.flatten.map List.length := List.map_flatten.symm
  rw [e1, e2, unflatten_flatten]

/-- Stacking is associative. -/
theorem C46_assoc (a b c : Topo) :
    (topoVstack [a, b]).bind (fun ab => topoVstack [ab, c]) = topoVstack [a, b, c] ∧
    (topoVstack [b, c]).bind (fun bc => topoVstack [a, bc]) = topoVstack [a, b, c] := by
  rw [C46_vstack (by simp), C46_vstack (by simp), C46_vstack (by simp)]
  constructor <;> simp [C46_vstack]

/-- Stacking arrays that were built from topologies is building from all the topologies. -/
theorem C46_vstack_build (ss ts : List RTopo) :
    ((topologyArray ss).bind fun a => (topologyArray ts).bind fun b => topoVstack [a, b]) = topologyArray (ss ++ ts) := by
  simp [C46_rows, C46_vstack]

/-- The example of the documentation: two lines and two quadrilaterals. -/
example : topologyArray [⟨3, [[0, 1, 2]], by decide⟩, ⟨2, [[3, 4]], by decide⟩, ⟨4, [[5, 6, 7, 8], [6, 7, 9, 10]], by decide⟩] =
    some [[0, 1, 2], [3, 4], [5, 6, 7, 8], [6, 7, 9, 10]] := by decide +kernel

example : topoVstack [[[0, 1, 2], [3, 4]], [[5, 6, 7, 8], [6, 7, 9, 10]]] =
    some [[0, 1, 2], [3, 4], [5, 6, 7, 8], [6, 7, 9, 10]] := by decide +kernel

/-! ## C55 -/

/-- Flipping twice restores the cells. -/
theorem C55_twice (t : Topo) : flipCells (flipCells t) = t := by
  simp [flipCells, Function.comp_def]

/-- Flipping keeps the number of cells and the nodes of every cell. -/
theorem C55_nodes (t : Topo) : (flipCells t).length = t.length ∧
    ∀ (i : Nat) (r r' : List Nat), t[i]? = some r → (flipCells t)[i]? = some r' → r'.Perm r := by
  refine ⟨by simp [flipCells], fun i r r' h h' => ?_⟩
  unfold flipCells at h'
  rw [List.getElem?_map, h] at h'
  obtain rfl := Option.some.inj h'
  exact r.reverse_perm

section
variable {K : Type} [Field K]

/-- Twice the signed area of the polygon with the given corners (shoelace). -/
def shoelace : List (K × K) → K
  | [] => 0
  | p :: l => go p (p :: l)
where
  /-- The sum over consecutive corners, closed by the first corner. -/
  go (first : K × K) : List (K × K) → K
    | [] => 0
    | [q] => q.1 * first.2 - q.2 * first.1
    | q :: r :: l => (q.1 * r.2 - q.2 * r.1) + go first (r :: l)

/-- The corners of a cell. -/
def cornersOf (X : Nat → K × K) (cell : List Nat) : List (K × K) := cell.map X

/-- Triangles and quadrilaterals: the signed area changes its sign. -/
theorem C55_plane (X : Nat → K × K) (a b c d : Nat) :
    (flipCells [[a, b, c]]).map (fun r => shoelace (cornersOf X r)) = [- shoelace (cornersOf X [a, b, c])] ∧
    (flipCells [[a, b, c, d]]).map (fun r => shoelace (cornersOf X r)) = [- shoelace (cornersOf X [a, b, c, d])] := by
  constructor <;>
  · simp only [flipCells, cornersOf, shoelace, shoelace.go, List.map_cons, List.map_nil, List.reverse_cons, List.reverse_nil,
      List.nil_append, List.cons_append]
    congr 1
    ring

/-- Lines: the direction from the first to the last node changes its sign, whatever the number of nodes. -/
theorem C55_line (X : Nat → V3 K) (r : List Nat) (a b : Nat) (ha : r.head? = some a) (hb : r.getLast? = some b) :
    ∃ a' b', (flipCells [r]).map (fun s => (s.head?, s.getLast?)) = [(some a', some b')] ∧ X b' - X a' = -(X b - X a) := by
  refine ⟨b, a, ?_, ?_⟩
  · simp only [flipCells, List.map_cons, List.map_nil]
    rw [List.head?_reverse, List.getLast?_reverse, ha, hb]
  · ext <;> simp

/-- Tetrahedra: the signed volume keeps its sign, so the orientation is not reversed. -/
theorem C55_tet_kept (X : Nat → V3 K) (a b c d : Nat) :
    flipCells [[a, b, c, d]] = [[d, c, b, a]] ∧ volTet ⟨X d, X c, X b, X a⟩ = volTet ⟨X a, X b, X c, X d⟩ := by
  refine ⟨rfl, ?_⟩
  simp only [volTet, V3.dot, V3.cross, V3.sub_x, V3.sub_y, V3.sub_z]
  ring

/-- Hexahedra with the shape of a parallelepiped (corner `o`, edges `u`, `v`, `w`): the flipped cell has the same signed volume,
taken at its first corner. -/
theorem C55_hex_kept (o u v w : V3 K) (X : Nat → V3 K)
    (h : [0, 1, 2, 3, 4, 5, 6, 7].map X = [o, o + u, o + u + v, o + v, o + w, o + u + w, o + u + v + w, o + v + w]) :
    flipCells [[0, 1, 2, 3, 4, 5, 6, 7]] = [[7, 6, 5, 4, 3, 2, 1, 0]] ∧
      volTet ⟨X 7, X 6, X 4, X 3⟩ = volTet ⟨X 0, X 1, X 3, X 4⟩ := by
  refine ⟨rfl, ?_⟩
  simp only [List.map_cons, List.map_nil, List.cons.injEq] at h
  obtain ⟨h0, h1, h2, h3, h4, h5, h6, h7, -⟩ := h
  rw [h0, h1, h3, h4, h6, h7]
  simp only [volTet, V3.dot, V3.cross, V3.sub_x, V3.sub_y, V3.sub_z, V3.add_x, V3.add_y, V3.add_z]
  ring

end

/-- The orientation of tetrahedra and hexahedra is claimed to be reversed. It is not. -/
theorem C55_solid_false : ¬ ∀ (X : Nat → V3 ℚ) (a b c d : Nat),
    ∀ r ∈ flipCells [[a, b, c, d]], ∀ a' b' c' d', r = [a', b', c', d'] →
      volTet ⟨X a', X b', X c', X d'⟩ = - volTet ⟨X a, X b, X c, X d⟩ := by
  intro h
  have := h (fun n => if n = 1 then ⟨1, 0, 0⟩ else if n = 2 then ⟨0, 1, 0⟩ else if n = 3 then ⟨0, 0, 1⟩ else ⟨0, 0, 0⟩) 0 1 2 3
    [3, 2, 1, 0] (by simp [flipCells]) 3 2 1 0 rfl
  exact absurd this (by decide +kernel)

/-- Six-noded triangles (corners first, then the middles of the sides): the first three nodes of the flipped cell are the
middles of the sides. -/
theorem C55_T6_false : ¬ ∀ (a b c d e f : Nat), ∀ r ∈ flipCells [[a, b, c, d, e, f]], (r.take 3).Perm [a, b, c] := by
  intro h
  have := h 0 1 2 3 4 5 [5, 4, 3, 2, 1, 0] (by simp [flipCells])
  exact absurd this (by decide)

example : flipCells [[0, 1, 2], [1, 3, 2]] = [[2, 1, 0], [2, 3, 1]] := by decide
example : shoelace (cornersOf (fun n => ([(0, 0), (1, 0), (0, 1)] : List (ℚ × ℚ)).getD n (0, 0)) [0, 1, 2]) = 1 := by
  decide +kernel

end PM
