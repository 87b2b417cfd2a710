import Verif.Mesh1d
import Mathlib.Algebra.Order.Field.Rat

/-!
# C22: refining lines
-/

namespace PM

variable {K : Type} [Field K]

/-- `C`, `T` is the mesh `coords`, `topo` of 2-noded lines with every line split into `N` equal pieces; node `j` of
the chain of pieces of line `i` has number `ch i j`. -/
structure IsRefinement (coords : List (List K)) (topo : Topo) (N : Nat) (C : List (List K))
    (T : List (List (List Int))) (ch : Nat → Nat → Nat) : Prop where
  /-- no points beyond the old ones and `N - 1` per line -/
  points : C.length = coords.length + topo.length * (N - 1)
  /-- the old points keep number and position -/
  old : ∀ i, i < coords.length → C[i]? = coords[i]?
  lines : T.length = topo.length
  /-- the pieces of a line form a chain from its first node to its second one -/
  chain : ∀ i a b, topo[i]? = some [a, b] → ch i 0 = a ∧ ch i N = b ∧
    T[i]? = some ((List.range N).map fun j => [(ch i j : Int), (ch i (j + 1) : Int)])
  /-- the nodes of the chain are evenly spaced -/
  spaced : ∀ i a b A B, topo[i]? = some [a, b] → coords[a]? = some A → coords[b]? = some B → ∀ j, j ≤ N →
    ∃ P, C[ch i j]? = some P ∧ P.length = A.length ∧
      ∀ (d : Nat) u v, A[d]? = some u → B[d]? = some v → P[d]? = some (u + (j : K) / (N : K) * (v - u))
  /-- every new point is an interior node of exactly one chain, and interior nodes are new -/
  inner : ∀ i j, i < topo.length → 0 < j → j < N → coords.length ≤ ch i j ∧ ch i j < C.length
  single : ∀ i j i' j', i < topo.length → i' < topo.length → 0 < j → j < N → 0 < j' → j' < N →
    ch i j = ch i' j' → i = i' ∧ j = j'
  all : ∀ n, coords.length ≤ n → n < C.length → ∃ i j, i < topo.length ∧ 0 < j ∧ j < N ∧ ch i j = n

theorem lerpRow_get {p q : List K} (h : p.length = q.length) (t : K) :
    (lerpRow p q t).length = p.length ∧
      ∀ (d : Nat) u v, p[d]? = some u → q[d]? = some v → (lerpRow p q t)[d]? = some (u + t * (v - u)) := by
  constructor
  · simp [lerpRow, h]
  · intro d u v hu hv
    rw [lerpRow, List.getElem?_zipWith, hu, hv]
    simp only [Option.some.injEq]
    ring

/-- C22: `mesh1d_uniform` refines a mesh of 2-noded lines evenly. -/
theorem C22_refine [CharZero K] (coords : List (List K)) (nD : Nat) (hD : ∀ r ∈ coords, r.length = nD) (topo : Topo)
    (ht : ∀ r ∈ topo, ∃ a b, r = [a, b] ∧ a < coords.length ∧ b < coords.length) (N : Nat) (hN : 1 ≤ N) :
    ∃ C T ch, mesh1dUniform coords nD topo 2 N = some (C, T) ∧ IsRefinement coords topo N C T ch := by
  obtain ⟨T, h1, h2, h3⟩ := meshLines_closed coords ((List.range (N + 1)).map fun j : Nat => [(j : K) / (N : K)])
    hN (by simp) (List.replicate nD 0) topo ht coords
  set sub : List (List K) := (List.range (N + 1)).map fun j : Nat => [(j : K) / (N : K)] with hsub
  have hlen : ∀ r, (linePts coords sub r).length = N - 1 := by intro r; simp [linePts, innerPts, hsub]
  have hNK : (N : K) ≠ 0 := Nat.cast_ne_zero.2 (by omega)
  refine ⟨coords ++ topo.flatMap (linePts coords sub), T,
    fun i j => chainNode N (coords.length + i * (N - 1)) ((topo.getD i []).headD 0) ((topo.getD i []).getLastD 0) j,
    ?_, ?_⟩
  · rw [mesh1dUniform, rgrid1_lines hN]
    exact h1
  have hflat : (topo.flatMap (linePts coords sub)).length = topo.length * (N - 1) := by
    rw [length_flatMap_block (n := N - 1) fun x _ => hlen _, Nat.mul_comm]
  refine ⟨?_, ?_, h2, ?_, ?_, ?_, ?_, ?_⟩
  · rw [List.length_append, hflat]
  · intro i hi
    rw [List.getElem?_append_left hi]
  · intro i a b hi
    have hg : topo.getD i [] = [a, b] := by simp [hi]
    have hlast : ([a, b] : List Nat).getLastD 0 = b := rfl
    simp only [hg, List.headD_cons, hlast]
    refine ⟨by simp [chainNode], ?_, h3 i a b hi⟩
    have : ¬ N = 0 := by omega
    simp [chainNode, this]
  · intro i a b A B hi ha hb j hj
    have hg : topo.getD i [] = [a, b] := by simp [hi]
    have hal : a < coords.length := (List.getElem?_eq_some_iff.1 ha).1
    have hbl : b < coords.length := (List.getElem?_eq_some_iff.1 hb).1
    have hAB : A.length = B.length := by
      rw [hD A (List.mem_of_getElem? ha), hD B (List.mem_of_getElem? hb)]
    simp only [hg, List.headD_cons, chainNode]
    have hlast : ([a, b] : List Nat).getLastD 0 = b := rfl
    rw [hlast]
    by_cases h0 : j = 0
    · subst h0
      refine ⟨A, by rw [if_pos rfl, List.getElem?_append_left hal, ha], rfl, ?_⟩
      intro d u v hu hv
      rw [hu]; simp
    · rw [if_neg h0]
      by_cases hjN : j = N
      · subst hjN
        refine ⟨B, by rw [if_pos rfl, List.getElem?_append_left hbl, hb], hAB.symm, ?_⟩
        intro d u v hu hv
        rw [hv, div_self hNK]; simp
      · rw [if_neg hjN]
        obtain ⟨l1, l2⟩ := lerpRow_get hAB ((j : K) / (N : K))
        refine ⟨lerpRow A B ((j : K) / (N : K)), ?_, l1, l2⟩
        rw [List.getElem?_append_right (by omega)]
        have hil : i < topo.length := (List.getElem?_eq_some_iff.1 hi).1
        have hb' : (topo.flatMap (linePts coords sub))[i * (N - 1) + (j - 1)]? =
            (linePts coords sub topo[i])[j - 1]? :=
          (getElem?_flatMap_block (fun x _ => hlen _) (by omega)).trans (by rw [List.getElem?_eq_getElem hil]; rfl)
        rw [show coords.length + i * (N - 1) + j - 1 - coords.length = i * (N - 1) + (j - 1) by omega, hb']
        have hti : topo[i] = [a, b] := by
          rw [List.getElem?_eq_getElem hil] at hi; exact Option.some.inj hi
        rw [hti, linePts, innerPts, List.getElem?_map]
        have hr : (List.range' 1 (sub.length - 2))[j - 1]? = some j := by
          have hsl : sub.length - 2 = N - 1 := by simp [hsub]
          rw [hsl, List.getElem?_range' (by omega)]
          congr 1; omega
        have hc : (sub.getD j []).getD 0 0 = (j : K) / (N : K) := by
          have : sub[j]? = some [(j : K) / (N : K)] := by
            rw [hsub, List.getElem?_map, List.getElem?_range (by omega)]; rfl
          simp [this]
        rw [hr, Option.map_some, hc]
        have e1 : coords.getD (([a, b] : List Nat).headD 0) [] = A := by simp [ha]
        have e2 : coords.getD (([a, b] : List Nat).getLastD 0) [] = B := by rw [hlast]; simp [hb]
        rw [e1, e2]
  · intro i j hi h0 hj
    have : (i + 1) * (N - 1) ≤ topo.length * (N - 1) := Nat.mul_le_mul_right _ hi
    rw [Nat.succ_mul] at this
    have e0 : ¬ j = 0 := by omega
    have e1 : ¬ j = N := by omega
    simp only [chainNode, if_neg e0, if_neg e1, List.length_append, hflat]
    omega
  · intro i j i' j' hi hi' h0 hj h0' hj' h
    have e0 : ¬ j = 0 := by omega
    have e1 : ¬ j = N := by omega
    have e2 : ¬ j' = 0 := by omega
    have e3 : ¬ j' = N := by omega
    simp only [chainNode, if_neg e0, if_neg e1, if_neg e2, if_neg e3] at h
    have := mixed_radix_inj (n := N - 1) (i := i) (k := j - 1) (i' := i') (k' := j' - 1) (by omega) (by omega) (by omega)
    omega
  · intro n hn hn'
    rw [List.length_append, hflat] at hn'
    obtain ⟨i, k, hi, hk, he⟩ := mixed_radix_exists (n := N - 1) (m := topo.length) (r := n - coords.length) (by rw [Nat.mul_comm]; omega)
    refine ⟨i, k + 1, hi, by omega, by omega, ?_⟩
    have e0 : ¬ k + 1 = 0 := by omega
    have e1 : ¬ k + 1 = N := by omega
    simp only [chainNode, if_neg e0, if_neg e1]
    omega

/-- Three points, two lines meeting at point 1, three pieces each. -/
example : mesh1dUniform (K := ℚ) [[0, 0], [3, 0], [3, 3]] 2 [[0, 1], [2, 1]] 2 3 =
    some ([[0, 0], [3, 0], [3, 3], [1, 0], [2, 0], [3, 2], [3, 1]],
      [[[0, 3], [3, 4], [4, 1]], [[2, 5], [5, 6], [6, 1]]]) := by decide +kernel

/-- C22, 3-noded pieces: the loop writes behind the end of the array of new points, for every mesh with at least
one line. (The property as listed is about 2-noded cells only; the argument `eshape` suggests others.) -/
theorem C22_three_nodes_false (coords : List (List K)) (nD : Nat) (topo : Topo) (N : Nat) (hN : 1 ≤ N)
    (ht : topo ≠ []) : mesh1dUniform coords nD topo 3 N = none := by
  by_contra h
  obtain ⟨r, hr⟩ := Option.ne_none_iff_exists'.1 h
  have := meshLines_room _ _ _ _ _ _ (by simp) hr
  have hl : (rgrid1 (1 : K) N 3 0 0).1.length = 2 * N + 1 := by
    simp [rgrid1, rgrid1With, axPts]; omega
  rw [hl] at this
  simp only [List.length_append, List.length_replicate] at this
  have h1 : topo.length * (N - 1) < topo.length * (2 * N + 1 - 2) :=
    Nat.mul_lt_mul_of_pos_left (by omega) (List.length_pos_of_ne_nil ht)
  omega

end PM
