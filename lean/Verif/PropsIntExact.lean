import Verif.PropsEvalPts
import Verif.PropsTetrahedralize

/-!
# C95, C105: exactly which integer points have the right weights, and which meshes of tetrahedra are at their places
-/

namespace PM

open Shp

section
variable {K : Type} [Field K] [LinearOrder K] [FloorRing K] [CharZero K] [IsStrictOrderedRing K]

omit [CharZero K] in
theorem truncK_eq_iff {x : K} : truncK x = x ↔ ∃ n : ℤ, x = n := by
  constructor
  · intro h
    unfold truncK at h
    split at h
    · exact ⟨_, h.symm⟩
    · exact ⟨_, h.symm⟩
  · rintro ⟨n, rfl⟩
    exact trunc_int n

theorem values_int_iff {c : ShpClass} {lc : List (V3 Int)} (h : (c, lc) ∈ compiledTable) {rows : List (List K)} (hr : ∀ a ∈ rows, Fits c a)
    (hne : rows ≠ []) : shapeValues c (.mat true rows) = shapeValues c (.mat false rows) ↔
      ∀ a ∈ rows, ∀ e ∈ c.N, ∃ n : ℤ, e.eval (pointAt c.nD a) = n := by
  obtain ⟨k1, k2⟩ := compiled_ok (K := K) h
  have hcomp : c.compiled = true := by
    simp only [compiledTable, List.mem_cons, Prod.mk.injEq, List.not_mem_nil, or_false] at h
    rcases h with ⟨rfl, rfl⟩ | ⟨rfl, rfl⟩ | ⟨rfl, rfl⟩ | ⟨rfl, rfl⟩ | ⟨rfl, rfl⟩ | ⟨rfl, rfl⟩ | ⟨rfl, rfl⟩ <;> rfl
  rw [values_eq k1 k2 hr hne, values_eq k1 k2 hr hne, Option.some_inj, List.map_inj_left]
  refine forall₂_congr fun a _ => ?_
  rw [List.map_inj_left]
  refine forall₂_congr fun e _ => ?_
  rw [store_float, ShpClass.store, if_pos ⟨hcomp, rfl⟩, truncK_eq_iff]

omit [LinearOrder K] [FloorRing K] [IsStrictOrderedRing K] in
theorem eval_consts (x : V3 K) : PE.eval x (1 : PE) = 1 ∧ PE.eval x (0.25 : PE) = 1 / 4 ∧ PE.eval x (0.125 : PE) = 1 / 8 ∧
    PE.eval x PE.r = x.x ∧ PE.eval x PE.s = x.y ∧ PE.eval x PE.t = x.z := by
  refine ⟨?_, ?_, ?_, rfl, rfl, rfl⟩
  · show ((1 : ℚ) : K) = 1
    simp
  · show ((0.25 : ℚ) : K) = 1 / 4
    norm_num
  · show ((0.125 : ℚ) : K) = 1 / 8
    norm_num

/-- **C95** (integers): lines with two nodes have the weights of floating point numbers at integers exactly if all of these are odd. -/
theorem C95_int_L2_exact {a : List ℤ} :
    shapeValues clsL2 (.vec true (a.map (Int.cast : ℤ → K))) = shapeValues clsL2 (.vec false (a.map Int.cast)) ↔ ∀ x ∈ a, Odd x := by
  have hv : ∀ int : Bool, shapeValues clsL2 (.vec int (a.map (Int.cast : ℤ → K))) =
      some (a.map fun n : ℤ => [clsL2.store int ((1 - (n : K)) / 2), clsL2.store int ((1 + (n : K)) / 2)]) := by
    intro int
    rw [shapeValues, PArr.front, if_neg (by decide), ShpClass.points?, if_pos (by decide), Option.map_some, List.map_map, List.map_map]
    congr 1
    refine List.map_congr_left fun n _ => ?_
    obtain ⟨e1, -, -, er, -, -⟩ := eval_consts (⟨(n : K), 0, 0⟩ : V3 K)
    have e2 : PE.eval (⟨(n : K), 0, 0⟩ : V3 K) (PE.c (1 / ((2 : Nat) : ℚ))) = 1 / 2 := by rw [PE.eval_c]; norm_num
    have k1 : PE.eval (⟨(n : K), 0, 0⟩ : V3 K) ((1 - PE.r : PE) / (2 : Nat)) = (1 - (n : K)) / 2 := by
      show PE.eval _ (PE.mul (PE.c (1 / ((2 : Nat) : ℚ))) (1 - PE.r)) = _
      rw [PE.eval, e2, PE.eval_sub, e1, er]
      ring
    have k2 : PE.eval (⟨(n : K), 0, 0⟩ : V3 K) ((1 + PE.r : PE) / (2 : Nat)) = (1 + (n : K)) / 2 := by
      show PE.eval _ (PE.mul (PE.c (1 / ((2 : Nat) : ℚ))) (1 + PE.r)) = _
      rw [PE.eval, e2, PE.eval_add, e1, er]
      ring
    simp only [Function.comp, PArr.isInt, clsL2, shpL2, List.map_cons, List.map_nil] at k1 k2 ⊢
    rw [k1, k2]
  rw [hv, hv, Option.some_inj, List.map_inj_left]
  refine forall₂_congr fun n _ => ?_
  simp only [store_float, List.cons.injEq, and_true]
  rw [ShpClass.store, ShpClass.store, if_pos ⟨rfl, rfl⟩, if_pos ⟨rfl, rfl⟩, truncK_eq_iff, truncK_eq_iff]
  constructor
  · rintro ⟨-, m, hm⟩
    refine ⟨m - 1, ?_⟩
    have : ((n : ℤ) : K) = ((2 * (m - 1) + 1 : ℤ) : K) := by
      push_cast
      linear_combination 2 * hm
    exact_mod_cast this
  · rintro ⟨m, rfl⟩
    refine ⟨⟨-m, ?_⟩, ⟨m + 1, ?_⟩⟩ <;> push_cast <;> ring

/-- **C95** (integers): quadrilaterals with four nodes have the weights of floating point numbers at points in integers exactly if both coordinates of all
points are odd. -/
theorem C95_int_Q4_exact {rows : List (List K)} (hne : rows ≠ []) (hr : ∀ a ∈ rows, ∃ (x y : ℤ) (l : List K), a = (x : K) :: (y : K) :: l) :
    shapeValues clsQ4 (.mat true rows) = shapeValues clsQ4 (.mat false rows) ↔
      ∀ a ∈ rows, ∀ (x y : ℤ) (l : List K), a = (x : K) :: (y : K) :: l → Odd x ∧ Odd y := by
  rw [values_int_iff (lc := lcQ4) (by simp [compiledTable]) (fun a ha => by
    obtain ⟨x, y, l, rfl⟩ := hr a ha
    simp [Fits, clsQ4]) hne]
  constructor
  · rintro h _ ha x y l rfl
    have h := h _ ha
    obtain ⟨e1, e4, -, er, es, -⟩ := eval_consts (pointAt 2 ((x : K) :: (y : K) :: l))
    simp only [clsQ4, shpQ4, List.forall_mem_cons, PE.eval_add, PE.eval_sub, PE.eval_mul, e1, e4, er, es] at h
    simp only [pointAt, List.getD_cons_zero, List.getD_cons_succ, le_refl, if_true] at h
    obtain ⟨⟨n0, h0⟩, ⟨n1, h1⟩, ⟨n2, h2⟩, -⟩ := h
    constructor
    · refine ⟨n1 + n2 - 1, ?_⟩
      have : ((x : ℤ) : K) = ((2 * (n1 + n2 - 1) + 1 : ℤ) : K) := by
        push_cast
        linear_combination 2 * h1 + 2 * h2
      exact_mod_cast this
    · refine ⟨-(n0 + n1), ?_⟩
      have : ((y : ℤ) : K) = ((2 * (-(n0 + n1)) + 1 : ℤ) : K) := by
        push_cast
        linear_combination -2 * h0 - 2 * h1
      exact_mod_cast this
  · intro h a ha
    obtain ⟨x, y, l, rfl⟩ := hr a ha
    obtain ⟨⟨x', hx⟩, ⟨y', hy⟩⟩ := h _ ha x y l rfl
    obtain ⟨e1, e4, -, er, es, -⟩ := eval_consts (pointAt 2 ((x : K) :: (y : K) :: l))
    simp only [clsQ4, shpQ4, List.forall_mem_cons, PE.eval_add, PE.eval_sub, PE.eval_mul, e1, e4, er, es]
    simp only [pointAt, List.getD_cons_zero, List.getD_cons_succ, le_refl, if_true]
    subst hx hy
    refine ⟨⟨x' * y', ?_⟩, ⟨-(x' + 1) * y', ?_⟩, ⟨(x' + 1) * (y' + 1), ?_⟩, ⟨-x' * (y' + 1), ?_⟩, by simp⟩ <;> push_cast <;> ring

/-- **C95** (integers): and hexahedra with eight nodes exactly if all three coordinates of all points are odd. -/
theorem C95_int_H8_exact {rows : List (ℤ × ℤ × ℤ)} (hne : rows ≠ []) :
    shapeValues clsH8 (.mat true (rows.map fun a => [(a.1 : K), (a.2.1 : K), (a.2.2 : K)])) =
      shapeValues clsH8 (.mat false (rows.map fun a => [(a.1 : K), (a.2.1 : K), (a.2.2 : K)])) ↔
      ∀ a ∈ rows, Odd a.1 ∧ Odd a.2.1 ∧ Odd a.2.2 := by
  rw [values_int_iff (lc := lcH8) (by simp [compiledTable]) (fun a ha => by
    obtain ⟨b, -, rfl⟩ := List.mem_map.1 ha
    simp [Fits, clsH8]) (by simpa using hne), List.forall_mem_map]
  refine forall₂_congr fun a _ => ?_
  obtain ⟨x, y, z⟩ := a
  simp only
  obtain ⟨-, -, e8, er, es, et⟩ := eval_consts (pointAt 3 [(x : K), (y : K), (z : K)])
  simp only [clsH8, shpH8, List.forall_mem_cons, PE.eval_add, PE.eval_sub, PE.eval_mul, PE.eval_neg, e8, er, es, et]
  simp only [pointAt, List.getD_cons_zero, List.getD_cons_succ, le_refl, if_true, Nat.reduceLeDiff]
  constructor
  · rintro ⟨⟨n0, h0⟩, ⟨n1, h1⟩, ⟨n2, h2⟩, ⟨n3, h3⟩, ⟨n4, h4⟩, ⟨n5, h5⟩, ⟨n6, h6⟩, ⟨n7, h7⟩, -⟩
    refine ⟨⟨n1 + n2 + n5 + n6 - 1, ?_⟩, ⟨n2 + n3 + n6 + n7 - 1, ?_⟩, ⟨n4 + n5 + n6 + n7 - 1, ?_⟩⟩
    · have : ((x : ℤ) : K) = ((2 * (n1 + n2 + n5 + n6 - 1) + 1 : ℤ) : K) := by
        push_cast
        linear_combination 2 * h1 + 2 * h2 + 2 * h5 + 2 * h6
      exact_mod_cast this
    · have : ((y : ℤ) : K) = ((2 * (n2 + n3 + n6 + n7 - 1) + 1 : ℤ) : K) := by
        push_cast
        linear_combination 2 * h2 + 2 * h3 + 2 * h6 + 2 * h7
      exact_mod_cast this
    · have : ((z : ℤ) : K) = ((2 * (n4 + n5 + n6 + n7 - 1) + 1 : ℤ) : K) := by
        push_cast
        linear_combination 2 * h4 + 2 * h5 + 2 * h6 + 2 * h7
      exact_mod_cast this
  · rintro ⟨⟨x, rfl⟩, ⟨y, rfl⟩, ⟨z, rfl⟩⟩
    refine ⟨⟨-(x * y * z), ?_⟩, ⟨(x + 1) * y * z, ?_⟩, ⟨-((x + 1) * (y + 1) * z), ?_⟩, ⟨x * (y + 1) * z, ?_⟩, ⟨x * y * (z + 1), ?_⟩,
      ⟨-((x + 1) * y * (z + 1)), ?_⟩, ⟨(x + 1) * (y + 1) * (z + 1), ?_⟩, ⟨-(x * (y + 1) * (z + 1)), ?_⟩, by simp⟩ <;> push_cast <;> ring

end

section
variable {K : Type} [Field K]

/-- **C105** the mesh shows the points of TetGen exactly if all of them are at their own places after two changes of the frame. -/
theorem C105_frame_exact {tetgen : FBlock K → Option (List (V3 K) × Topo)} {m : List (FBlock K)} (hm : (m.map FBlock.path).Nodup)
    {p : List Nat} {b : FBlock K} (hb : OnlyCells m p b) {X : List (V3 K)} {T : Topo} (ht : tetgen b = some (X, T))
    {F : CFrame K} (hF : F.Ortho) (hp : frameOf m p = some F) {order : Int} (ho : order < 2) :
    ∃ r, tetrahedralize tetgen order m p = some r ∧ (ShowsSolid r X T ↔ ∀ x ∈ X, F.place (F.place x) = x) := by
  obtain ⟨r, h1, ⟨h2, c, h3, h4, h5⟩, -⟩ := C105_linear hm hb ht hF hp ho
  refine ⟨r, h1, ?_, fun h => ⟨h2, c, h3, ?_, ?_⟩⟩
  · rintro ⟨-, c', e1, e2, -⟩ x hx
    rw [h3] at e1
    cases e1
    rw [h4] at e2
    have : X.map (fun x => F.place (F.place x)) = X.map id := by rw [e2, List.map_id]
    exact List.map_inj_left.1 this x hx
  · rw [h4]
    conv_rhs => rw [← List.map_id X]
    exact List.map_congr_left h
  · rw [h5, List.length_map]

end

/-- A frame that is its own inverse: the points are right although they are transformed twice. -/
def mirrorFrame : CFrame ℚ := ⟨⟨-1, 0, 0⟩, ⟨0, -1, 0⟩, ⟨0, 0, 1⟩, ⟨0, 0, 0⟩⟩

example : mirrorFrame ≠ ambFrame ∧ (∀ x ∈ [(⟨1, 2, 3⟩ : V3 ℚ), ⟨0, 4, 1⟩], mirrorFrame.place (mirrorFrame.place x) = x) ∧
    ¬ ∀ x ∈ [(⟨1, 0, 0⟩ : V3 ℚ)], turnedFrame.place (turnedFrame.place x) = x := by decide +kernel

/-- At odd numbers outside of the cell the weights are integers, at even ones they are cut. -/
example : shapeValues clsQ4 (.mat true [[(3 : ℚ), -1]]) = some [[-1, 2, 0, 0]] ∧
    shapeValues clsQ4 (.mat true [[(2 : ℚ), 1]]) ≠ shapeValues clsQ4 (.mat false [[(2 : ℚ), 1]]) ∧
    shapeValues clsH8 (.mat true [[(3 : ℚ), 1, -1]]) = some [[0, 0, 2, -1, 0, 0, 0, 0]] := by decide +kernel

end PM
