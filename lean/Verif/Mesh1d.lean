import Verif.GridClosed

/-!
# Model of `src/polymesh/mesh1d.py`
-/

namespace PM

section
variable {K : Type} [Field K]

/-- `p1 * (1 - t) + p2 * t` for two rows of coordinates, mesh1d.py 36. -/
def lerpRow (p1 p2 : List K) (t : K) : List K := List.zipWith (fun a b => a * (1 - t) + b * t) p1 p2

/-- `subtopo[0, 0] = a`, mesh1d.py 31. -/
def setFirst (t : List (List Int)) (a : Int) : List (List Int) := t.modify 0 fun r => r.set 0 a

/-- `subtopo[-1, -1] = b`, mesh1d.py 32. -/
def setLast (t : List (List Int)) (b : Int) : List (List Int) :=
  t.modify (t.length - 1) fun r => r.set (r.length - 1) b

/-- `coords_new[cN] = p; cN += 1` for all interior points, mesh1d.py 35-38. Writing behind the end of
`coords_new` (not checked by the compiled code) is `none`. -/
def writePts : List (List K) → List (List K) → Nat → Option (List (List K) × Nat)
  | [], buf, c => some (buf, c)
  | p :: ps, buf, c => if c < buf.length then writePts ps (buf.set c p) (c + 1) else none

/-- The interior points of one line, mesh1d.py 33-36: `subcoords_[j]` for `j` in `range(1, num_node_sub - 1)`. -/
def innerPts (sub : List (List K)) (p1 p2 : List K) : List (List K) :=
  (List.range' 1 (sub.length - 2)).map fun j => lerpRow p1 p2 ((sub.getD j []).getD 0 0)

/-- The loop over the lines, mesh1d.py 29-40: the buffer `coords_new`, the counter `cN` and the topologies of the
lines dealt with. `subC`, `subT` are `subcoords_`, `subtopo_`; the frames (41) are left out. -/
def meshLines (coords subC : List (List K)) (subT : List (List Int)) :
    Topo → List (List K) → Nat → Option (List (List K) × List (List (List Int)))
  | [], buf, _ => some (buf, [])
  | row :: topo, buf, cN =>
    match row.head?, row.getLast? with
    | some a, some b =>
      match coords[a]?, coords[b]? with
      | some p1, some p2 =>
        match writePts (innerPts subC p1 p2) buf cN with
        | some (buf', cN') =>
          match meshLines coords subC subT topo buf' cN' with
          | some (C, T) =>
            some (C, setLast (setFirst (subT.map (List.map fun e => e + (cN : Int) - 1)) a) b :: T)
          | none => none
        | none => none
      | _, _ => none
    | _, _ => none

/-- `_mesh1d_uniform_`, mesh1d.py 19-42, for cells with `nN` nodes (`eshape`), `N` pieces per line and
points with `nD` coordinates. -/
def mesh1dUniform (coords : List (List K)) (nD : Nat) (topo : Topo) (nN N : Nat) :
    Option (List (List K) × List (List (List Int))) :=
  let g := rgrid1 (1 : K) N nN 0 0
  meshLines coords g.1 g.2 topo
    (coords ++ List.replicate (topo.length * (N - 1)) (List.replicate nD 0)) coords.length

end

/-! ## closed form -/

section
variable {K : Type} [Field K]

omit [Field K] in
theorem writePts_append (ps : List (List K)) (pre : List (List K)) (m : Nat) (z : List K) :
    writePts ps (pre ++ List.replicate (ps.length + m) z) pre.length =
      some (pre ++ ps ++ List.replicate m z, pre.length + ps.length) := by
  induction ps generalizing pre with
  | nil => simp [writePts]
  | cons p ps ih =>
    have h1 : pre.length < (pre ++ List.replicate ((p :: ps).length + m) z).length := by
      simp only [List.length_append, List.length_replicate, List.length_cons]; omega
    have h2 : (pre ++ List.replicate ((p :: ps).length + m) z).set pre.length p =
        (pre ++ [p]) ++ List.replicate (ps.length + m) z := by
      rw [List.set_append_right _ _ (le_refl _), Nat.sub_self, List.length_cons,
        show ps.length + 1 + m = (ps.length + m) + 1 from by omega, List.replicate_succ, List.set_cons_zero, List.append_assoc, List.singleton_append]
    have h3 := ih (pre ++ [p])
    rw [List.length_append, List.length_singleton] at h3
    rw [writePts, if_pos h1, h2, h3]
    simp only [List.append_assoc, List.singleton_append, List.length_cons, Option.some.injEq, Prod.mk.injEq, true_and]
    omega

/-- Node `j` of the chain of line `a b` whose interior points start at number `c`. -/
def chainNode (N c a b j : Nat) : Nat := if j = 0 then a else if j = N then b else c + j - 1

theorem subtopo_closed {N : Nat} (hN : 1 ≤ N) (c a b : Nat) :
    setLast (setFirst (((List.range N).map fun i : Nat => [(i : Int), (i : Int) + 1]).map
      (List.map fun e => e + (c : Int) - 1)) (a : Int)) (b : Int) =
    (List.range N).map fun j => [(chainNode N c a b j : Int), (chainNode N c a b (j + 1) : Int)] := by
  apply List.ext_getElem
  · simp [setLast, setFirst]
  · intro j h1 h2
    have hj : j < N := by simpa using h2
    simp only [setLast, setFirst, List.getElem_modify, List.length_modify, List.length_map, List.length_range,
      List.getElem_map, List.getElem_range, List.map_cons, List.map_nil, chainNode]
    by_cases h0 : j = 0
    · subst h0
      by_cases h : N = 1
      · subst h; simp
      · have h' : ¬ (N - 1 = 0) := by omega
        have h'' : ¬ (1 = N) := by omega
        simp [h', h'']
    · have e0 : ¬ (0 = j) := by omega
      have e1 : ¬ (j = N) := by omega
      by_cases h : N - 1 = j
      · have : j + 1 = N := by omega
        simp [h0, e0, e1, h, this]; omega
      · have : ¬ (j + 1 = N) := by omega
        simp [h0, e0, e1, h, this]; omega

theorem rgrid1_lines [CharZero K] {N : Nat} (hN : 1 ≤ N) :
    rgrid1 (1 : K) N 2 0 0 = ((List.range (N + 1)).map fun j : Nat => [(j : K) / (N : K)],
      (List.range N).map fun i : Nat => [(i : Int), (i : Int) + 1]) := by
  rw [rgrid1, rgrid1_closed (1 : K) 0 0 hN (le_refl 2) (List.Perm.refl _) (List.Perm.refl _)]
  refine Prod.ext ?_ ?_
  · simp only [gridCoords, gridL, List.map_cons, List.map_nil, Axis.pts, gridVal, Axis.val, uniAxis,
      Nat.add_one_sub_one, Nat.mul_one, Axis.pos, Nat.div_one, Nat.mod_one]
    rw [← List.map_eq_flatMap]
    apply List.map_congr_left
    intro j _
    norm_num
    ring
  · simp only [gridTopo, gridL, List.map_cons, List.map_nil, Axis.pts, uniAxis, gridNo, lexNo, Axis.no, addStart]
    rw [← List.map_eq_flatMap, List.map_map]
    apply List.map_congr_left
    intro i _
    simp [List.range_succ]

/-- The interior points of a line, read off its end nodes. -/
def linePts (coords sub : List (List K)) (row : List Nat) : List (List K) :=
  innerPts sub (coords.getD (row.headD 0) []) (coords.getD (row.getLastD 0) [])

theorem meshLines_closed (coords subC : List (List K)) {N : Nat} (hN : 1 ≤ N) (hs : subC.length = N + 1) (z : List K)
    (topo : Topo) (ht : ∀ r ∈ topo, ∃ a b, r = [a, b] ∧ a < coords.length ∧ b < coords.length)
    (pre : List (List K)) :
    ∃ T, meshLines coords subC ((List.range N).map fun i : Nat => [(i : Int), (i : Int) + 1]) topo
        (pre ++ List.replicate (topo.length * (N - 1)) z) pre.length =
        some (pre ++ topo.flatMap (linePts coords subC), T) ∧ T.length = topo.length ∧
      ∀ i a b, topo[i]? = some [a, b] → T[i]? = some ((List.range N).map fun j =>
        [(chainNode N (pre.length + i * (N - 1)) a b j : Int),
         (chainNode N (pre.length + i * (N - 1)) a b (j + 1) : Int)]) := by
  induction topo generalizing pre with
  | nil => exact ⟨[], by simp [meshLines], rfl, by simp⟩
  | cons row topo ih =>
    obtain ⟨a, b, rfl, ha, hb⟩ := ht row List.mem_cons_self
    have hlen : (linePts coords subC [a, b]).length = N - 1 := by
      simp [linePts, innerPts, hs]
    obtain ⟨T, h1, h2, h3⟩ := ih (fun r hr => ht r (List.mem_cons_of_mem _ hr)) (pre ++ linePts coords subC [a, b])
    refine ⟨((List.range N).map fun j => [(chainNode N pre.length a b j : Int),
      (chainNode N pre.length a b (j + 1) : Int)]) :: T, ?_, by simp [h2], ?_⟩
    · have hw := writePts_append (linePts coords subC [a, b]) pre (topo.length * (N - 1)) z
      rw [hlen] at hw
      have hl : innerPts subC coords[a] coords[b] = linePts coords subC [a, b] := by
        simp [linePts, List.getElem?_eq_getElem ha, List.getElem?_eq_getElem hb]
      have e : (topo.length + 1) * (N - 1) = N - 1 + topo.length * (N - 1) := by ring
      rw [List.length_append, hlen] at h1
      simp only [List.append_assoc] at h1 hw
      simp only [meshLines, List.head?_cons, List.getLast?_cons_cons, List.getLast?_singleton,
        List.getElem?_eq_getElem ha, List.getElem?_eq_getElem hb, hl, List.length_cons, e, hw, h1,
        subtopo_closed hN, List.flatMap_cons]
    · intro i a' b' hi
      cases i with
      | zero =>
        simp only [List.getElem?_cons_zero, Option.some.injEq, List.cons.injEq, and_true] at hi ⊢
        obtain ⟨rfl, rfl⟩ := hi
        simp
      | succ i =>
        simp only [List.getElem?_cons_succ] at hi ⊢
        rw [h3 i a' b' hi, List.length_append, hlen, Nat.add_assoc,
          show N - 1 + i * (N - 1) = (i + 1) * (N - 1) by ring]

omit [Field K] in
theorem writePts_some (ps buf : List (List K)) (c : Nat) {buf' : List (List K)} {c' : Nat} (hc : c ≤ buf.length)
    (h : writePts ps buf c = some (buf', c')) :
    buf'.length = buf.length ∧ c' = c + ps.length ∧ c + ps.length ≤ buf.length := by
  induction ps generalizing buf c with
  | nil => simp only [writePts, Option.some.injEq, Prod.mk.injEq] at h; obtain ⟨rfl, rfl⟩ := h; simpa using hc
  | cons p ps ih =>
    rw [writePts] at h
    split at h
    · rename_i hlt
      have := ih (buf.set c p) (c + 1) (by rw [List.length_set]; omega) h
      simp only [List.length_set] at this
      simp only [List.length_cons]
      omega
    · cases h

/-- If the loop succeeds then the buffer had room for all interior points. -/
theorem meshLines_room (coords subC : List (List K)) (subT : List (List Int)) (topo : Topo) (buf : List (List K))
    (c : Nat) (hc : c ≤ buf.length) {r : List (List K) × List (List (List Int))}
    (h : meshLines coords subC subT topo buf c = some r) : c + topo.length * (subC.length - 2) ≤ buf.length := by
  induction topo generalizing buf c r with
  | nil => simpa using hc
  | cons row topo ih =>
    rw [meshLines] at h
    split at h
    · split at h
      · rename_i p1 p2 _ _
        split at h
        · rename_i buf' c' hw
          obtain ⟨h1, h2, h3⟩ := writePts_some _ _ _ hc hw
          have hl : (innerPts subC p1 p2).length = subC.length - 2 := by simp [innerPts]
          split at h
          · rename_i C T hm
            have := ih buf' c' (by omega) hm
            rw [List.length_cons, Nat.succ_mul]
            omega
          · cases h
        · cases h
      · cases h
    · cases h

end

end PM
