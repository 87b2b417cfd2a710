import Verif.IntPts
import Verif.PropsLocate
import Verif.PropsLocateTri
import Verif.PropsEvalPts
import Verif.PropsExtrude

/-!
# C111: points in arrays of integers
-/

namespace PM

section
variable {K : Type} [Field K] [LinearOrder K] [FloorRing K] [IsStrictOrderedRing K]

omit [IsStrictOrderedRing K] in
theorem storeAs_false (x : K) : storeAs false x = x := rfl

omit [IsStrictOrderedRing K] in
theorem n3_store_false (n : N3 K) : n.storeAs false = n := rfl

omit [IsStrictOrderedRing K] in
theorem n4_store_false (n : N4 K) : n.storeAs false = n := rfl

omit [IsStrictOrderedRing K] in
/-- **C111** (floating point numbers): the searches are those of C47 and C73. -/
theorem C111_float (sched : List (Nat × Nat) → List (Nat × Nat)) (c2 : List (P2 K)) (c3 lcoords : List (V3 K)) (topo map : Topo) (nb : List (List Nat))
    (tol : K) (x2 : List (P2 K)) (x3 : List (V3 K)) :
    pipCells2dAs false c2 topo map tol x2 = pipCells2d c2 topo map tol x2 ∧ pipCells3dAs false c3 topo map nb tol x3 = pipCells3d c3 topo map nb tol x3 ∧
    locateAs false sched c3 topo map lcoords nb tol x3 = locate sched c3 topo map lcoords nb tol x3 := ⟨rfl, rfl, rfl⟩

/-! ## cutting off -/

/-- Cutting off gives an integer between the number and zero. -/
theorem trunc_cases (x : K) : ∃ n : ℤ, truncK x = n ∧ (0 ≤ x → (n : K) ≤ x ∧ x < n + 1 ∧ 0 ≤ n) ∧ (x < 0 → x ≤ n ∧ (n : K) < x + 1 ∧ n ≤ 0) := by
  unfold truncK
  by_cases h : 0 ≤ x
  · rw [if_pos h]
    exact ⟨_, rfl, fun _ => ⟨Int.floor_le x, Int.lt_floor_add_one x, Int.floor_nonneg.2 h⟩, fun h' => absurd h (not_le.2 h')⟩
  · rw [if_neg h]
    push Not at h
    exact ⟨_, rfl, fun h' => absurd h' (not_le.2 h), fun _ => ⟨Int.le_ceil x, Int.ceil_lt_add_one x, by
      have := Int.ceil_mono h.le
      simpa using this⟩⟩

theorem trunc_trunc (x : K) : truncK (truncK x) = truncK x := by
  obtain ⟨n, hn, -⟩ := trunc_cases x
  rw [hn, trunc_int]

theorem store_store (int : Bool) (x : K) : storeAs int (storeAs int x) = storeAs int x := by
  cases int
  · rfl
  · exact trunc_trunc x

theorem n3_store_store (int : Bool) (n : N3 K) : (n.storeAs int).storeAs int = n.storeAs int := by
  simp only [N3.storeAs, store_store]

theorem n4_store_store (int : Bool) (n : N4 K) : (n.storeAs int).storeAs int = n.storeAs int := by
  simp only [N4.storeAs, store_store]

/-- A stored number passes the tests if the number itself is between minus one and two. -/
theorem trunc_pass {tol : K} (h0 : 0 < tol) (h1 : tol ≤ 1) (x : K) : (-tol < truncK x ∧ truncK x < 1 + tol) ↔ (-1 < x ∧ x < 2) := by
  obtain ⟨n, hn, hp, hm⟩ := trunc_cases x
  rw [hn]
  rcases le_or_gt 0 x with hx | hx
  · obtain ⟨a, b, c⟩ := hp hx
    have c' : (0 : K) ≤ n := by exact_mod_cast c
    constructor
    · rintro ⟨-, h⟩
      have : (n : K) < 2 := by linarith
      have : n < 2 := by exact_mod_cast this
      have : (n : K) ≤ 1 := by exact_mod_cast (by omega : n ≤ 1)
      exact ⟨by linarith, by linarith⟩
    · rintro ⟨-, h⟩
      have : (n : K) < 2 := lt_of_le_of_lt a h
      have : n < 2 := by exact_mod_cast this
      have : (n : K) ≤ 1 := by exact_mod_cast (by omega : n ≤ 1)
      exact ⟨by linarith, by linarith⟩
  · obtain ⟨a, b, c⟩ := hm hx
    have c' : (n : K) ≤ 0 := by exact_mod_cast c
    constructor
    · rintro ⟨h, -⟩
      have : (-1 : K) < n := by linarith
      have : -1 < n := by exact_mod_cast this
      have : (0 : K) ≤ n := by exact_mod_cast (by omega : 0 ≤ n)
      exact ⟨by linarith, by linarith⟩
    · rintro ⟨h, -⟩
      have : (-1 : K) < n := by linarith
      have : -1 < n := by exact_mod_cast this
      have : (0 : K) ≤ n := by exact_mod_cast (by omega : 0 ≤ n)
      exact ⟨by linarith, by linarith⟩

/-- Without tolerance no stored number passes. -/
theorem trunc_zero (x : K) : ¬ ((0 : K) < truncK x ∧ truncK x < 1) := by
  obtain ⟨n, hn, -⟩ := trunc_cases x
  rw [hn]
  rintro ⟨h1, h2⟩
  have : (0 : ℤ) < n := by exact_mod_cast h1
  have : n < 1 := by exact_mod_cast h2
  omega

/-- Weights between minus one and two. -/
def Loose (a : K) : Prop := -1 < a ∧ a < 2

theorem pipTri_int {tol : K} (h0 : 0 < tol) (h1 : tol ≤ 1) (n : N3 K) :
    pipTri tol (n.storeAs true) = true ↔ Loose n.n1 ∧ Loose n.n2 ∧ Loose n.n3 := by
  have a := trunc_pass h0 h1 n.n1
  have b := trunc_pass h0 h1 n.n2
  have c := trunc_pass h0 h1 n.n3
  simp only [pipTri, N3.storeAs, storeAs, if_true, Bool.and_eq_true, decide_eq_true_eq, Loose]
  rw [← a, ← b, ← c]
  exact ⟨fun ⟨⟨⟨q1, q2⟩, q3⟩, ⟨⟨q4, q5⟩, q6⟩⟩ => ⟨⟨q1, q4⟩, ⟨q2, q5⟩, ⟨q3, q6⟩⟩, fun ⟨⟨q1, q4⟩, ⟨q2, q5⟩, ⟨q3, q6⟩⟩ => ⟨⟨⟨q1, q2⟩, q3⟩, ⟨⟨q4, q5⟩, q6⟩⟩⟩

theorem pipTet_int {tol : K} (h0 : 0 < tol) (h1 : tol ≤ 1) (n : N4 K) :
    pipTet tol (n.storeAs true) = true ↔ Loose n.n1 ∧ Loose n.n2 ∧ Loose n.n3 ∧ Loose n.n4 := by
  have a := trunc_pass h0 h1 n.n1
  have b := trunc_pass h0 h1 n.n2
  have c := trunc_pass h0 h1 n.n3
  have d := trunc_pass h0 h1 n.n4
  simp only [pipTet, N4.storeAs, storeAs, if_true, Bool.and_eq_true, decide_eq_true_eq, Loose]
  rw [← a, ← b, ← c, ← d]
  exact ⟨fun ⟨⟨⟨⟨q1, q2⟩, q3⟩, q4⟩, ⟨⟨⟨q5, q6⟩, q7⟩, q8⟩⟩ => ⟨⟨q1, q5⟩, ⟨q2, q6⟩, ⟨q3, q7⟩, ⟨q4, q8⟩⟩,
    fun ⟨⟨q1, q5⟩, ⟨q2, q6⟩, ⟨q3, q7⟩, ⟨q4, q8⟩⟩ => ⟨⟨⟨⟨q1, q2⟩, q3⟩, q4⟩, ⟨⟨⟨q5, q6⟩, q7⟩, q8⟩⟩⟩

theorem pipTri_int_zero (n : N3 K) : pipTri 0 (n.storeAs true) = false := by
  have a := trunc_zero n.n1
  by_contra h
  rw [Bool.not_eq_false] at h
  simp only [pipTri, N3.storeAs, storeAs, if_true, Bool.and_eq_true, decide_eq_true_eq, neg_zero, add_zero] at h
  tauto

theorem pipTet_int_zero (n : N4 K) : pipTet 0 (n.storeAs true) = false := by
  have a := trunc_zero n.n1
  by_contra h
  rw [Bool.not_eq_false] at h
  simp only [pipTet, N4.storeAs, storeAs, if_true, Bool.and_eq_true, decide_eq_true_eq, neg_zero, add_zero] at h
  tauto

/-! ## plane cells -/

omit [Field K] [LinearOrder K] [FloorRing K] [IsStrictOrderedRing K] in
theorem tris_exist {coords : List (P2 K)} {topo trimap : Topo} (hp : PathOK topo trimap 3) (hnode : ∀ cell ∈ topo, ∀ k ∈ cell, k < coords.length) :
    transformTopology topo trimap 3 0 = some (transformed topo trimap 0) ∧
    ∃ ts, (transformed topo trimap 0).mapM (triOf coords) = some ts ∧ ∀ t, t ∈ ts ↔ ∃ cell ∈ topo, ∃ m ∈ trimap, TriOfCell coords cell m t := by
  obtain ⟨h1, ts, h2, -, h4⟩ := simplices_exist (of := triOf coords) hp hnode fun row hl hk => triOf_exists hl hk
  refine ⟨h1, ts, h2, fun t => ?_⟩
  rw [h4]
  constructor
  · rintro ⟨cell, hc, m, hm, h⟩
    exact ⟨cell, hc, m, hm, (triOfCell_iff (hp.inside cell hc m hm)).1 h⟩
  · rintro ⟨cell, hc, m, hm, h⟩
    exact ⟨cell, hc, m, hm, (triOfCell_iff (hp.inside cell hc m hm)).2 h⟩

/-- **C111** for plane cells: what is answered for points in integers. With the default tolerance a point passes if its weights in one of the triangles
are between minus one and two; without tolerance no point passes. -/
theorem C111_plane_partial {coords : List (P2 K)} {topo trimap : Topo} (hp : PathOK topo trimap 3)
    (hnode : ∀ cell ∈ topo, ∀ k ∈ cell, k < coords.length)
    (hccw : ∀ cell ∈ topo, ∀ m ∈ trimap, ∀ t, TriOfCell coords cell m t → Ccw t) (tol : K) (x : List (P2 K)) :
    ∃ r, pipCells2dAs true coords topo trimap tol x = some r ∧ r.length = x.length ∧
      ∀ (i : Nat) (p : P2 K), x[i]? = some p → ∃ b, r[i]? = some b ∧
        (0 < tol → tol ≤ 1 → (b = true ↔ ∃ cell ∈ topo, ∃ m ∈ trimap, ∃ t n, TriOfCell coords cell m t ∧ IsNat t p n ∧ Loose n.n1 ∧ Loose n.n2 ∧ Loose n.n3)) ∧
        (0 < tol → tol ≤ 1 → (∃ cell ∈ topo, ∃ m ∈ trimap, ∃ t, TriOfCell coords cell m t ∧ InTri t p) → b = true) ∧
        (tol = 0 → b = false) := by
  obtain ⟨h1, ts, h2, hts⟩ := tris_exist hp hnode
  have key : ∀ p : P2 K, 0 < tol → tol ≤ 1 → ((ts.map fun t => pipTri tol (((globToNatTri p t).storeAs true).storeAs true)).any id = true ↔
      ∃ cell ∈ topo, ∃ m ∈ trimap, ∃ t n, TriOfCell coords cell m t ∧ IsNat t p n ∧ Loose n.n1 ∧ Loose n.n2 ∧ Loose n.n3) := by
    intro p t0 t1
    rw [List.any_eq_true]
    constructor
    · rintro ⟨b, hb1, hb2⟩
      obtain ⟨t, ht, rfl⟩ := List.mem_map.1 hb1
      obtain ⟨cell, hc, m, hm, htc⟩ := (hts t).1 ht
      rw [n3_store_store] at hb2
      exact ⟨cell, hc, m, hm, t, _, htc, (C28_glob_to_nat_partial (hccw cell hc m hm t htc) p).1, (pipTri_int t0 t1 _).1 hb2⟩
    · rintro ⟨cell, hc, m, hm, t, n, htc, hn, hl⟩
      have hcc := hccw cell hc m hm t htc
      have e := C28_unique (ne_of_gt hcc) hn (C28_glob_to_nat_partial hcc p).1
      subst e
      refine ⟨_, List.mem_map.2 ⟨t, (hts t).2 ⟨cell, hc, m, hm, htc⟩, rfl⟩, ?_⟩
      rw [n3_store_store]
      exact (pipTri_int t0 t1 _).2 hl
  refine ⟨(pipTriBulkAs true tol x ts).map fun r => r.any id, by simp only [pipCells2dAs, h1, h2, Option.bind_some, Option.map_some],
    by simp [pipTriBulkAs], fun i p hi => ⟨(ts.map fun t => pipTri tol (((globToNatTri p t).storeAs true).storeAs true)).any id, ?_, key p, ?_, ?_⟩⟩
  · simp [pipTriBulkAs, hi]
  · rintro t0 t1 ⟨cell, hc, m, hm, t, htc, n, hn, p1, p2, p3⟩
    refine (key p t0 t1).2 ⟨cell, hc, m, hm, t, n, htc, hn, ?_⟩
    have := hn.sum
    exact ⟨⟨by linarith, by linarith⟩, ⟨by linarith, by linarith⟩, ⟨by linarith, by linarith⟩⟩
  · rintro rfl
    rw [List.any_eq_false]
    intro b hb
    obtain ⟨t, -, rfl⟩ := List.mem_map.1 hb
    rw [n3_store_store, id, pipTri_int_zero]
    decide

/-- Triangles whose corners have integer coordinates and whose area is a half: the weights of points with integer coordinates are integers. -/
theorem nat_int {t : Tri K} (ht : turn t.p1 t.p2 t.p3 = 1) {p : P2 K}
    (hi : ∀ q ∈ [t.p1, t.p2, t.p3, p], ∃ a b : ℤ, q = ⟨(a : K), (b : K)⟩) : (globToNatTri p t).storeAs true = globToNatTri p t := by
  obtain ⟨⟨x1, y1⟩, ⟨x2, y2⟩, ⟨x3, y3⟩⟩ := t
  obtain ⟨x, y⟩ := p
  have e1 := hi ⟨x1, y1⟩ (by simp)
  have e2 := hi ⟨x2, y2⟩ (by simp)
  have e3 := hi ⟨x3, y3⟩ (by simp)
  have e4 := hi ⟨x, y⟩ (by simp)
  simp only [P2.mk.injEq] at e1 e2 e3 e4
  obtain ⟨a1, b1, rfl, rfl⟩ := e1
  obtain ⟨a2, b2, rfl, rfl⟩ := e2
  obtain ⟨a3, b3, rfl, rfl⟩ := e3
  obtain ⟨a, b, rfl, rfl⟩ := e4
  simp only [turn] at ht
  have hA : |(a2 : K) * (b3 - b1) + a1 * (b2 - b3) + a3 * (b1 - b2)| = 1 := by
    have : (a2 : K) * (b3 - b1) + a1 * (b2 - b3) + a3 * (b1 - b2) = 1 := by linear_combination ht
    rw [this, abs_one]
  simp only [globToNatTri, N3.storeAs, hA, div_one, storeAs, if_true, N3.mk.injEq]
  have i1 := trunc_int (K := K) (a2 * b3 - a * b3 - a3 * b2 + a * b2 + a3 * b - a2 * b)
  have i2 := trunc_int (K := K) (a * b3 - a1 * b3 + a3 * b1 - a * b1 - a3 * b + a1 * b)
  have i3 := trunc_int (K := K) (1 - (a2 * b3 - a * b3 - a3 * b2 + a * b2 + a3 * b - a2 * b) - (a * b3 - a1 * b3 + a3 * b1 - a * b1 - a3 * b + a1 * b))
  push_cast at i1 i2 i3
  exact ⟨i1, i2, i3⟩

/-- **C111** for plane cells of triangles with integer corners and area one half: integers do no harm. -/
theorem C111_unit_partial {coords : List (P2 K)} {topo trimap : Topo} (hp : PathOK topo trimap 3)
    (hnode : ∀ cell ∈ topo, ∀ k ∈ cell, k < coords.length)
    (h1 : ∀ cell ∈ topo, ∀ m ∈ trimap, ∀ t, TriOfCell coords cell m t → turn t.p1 t.p2 t.p3 = 1)
    (hc : ∀ q ∈ coords, ∃ a b : ℤ, q = ⟨(a : K), (b : K)⟩) (tol : K) {x : List (P2 K)} (hx : ∀ q ∈ x, ∃ a b : ℤ, q = ⟨(a : K), (b : K)⟩) :
    pipCells2dAs true coords topo trimap tol x = pipCells2d coords topo trimap tol x := by
  obtain ⟨g1, ts, g2, hts⟩ := tris_exist hp hnode
  simp only [pipCells2dAs, pipCells2d, g1, g2, Option.bind_some, Option.map_some, pipTriBulkAs, pipTriBulk]
  congr 1
  refine congrArg _ (List.map_congr_left fun p hp' => List.map_congr_left fun t ht => ?_)
  obtain ⟨cell, hce, m, hm, htc⟩ := (hts t).1 ht
  rw [n3_store_store, nat_int (h1 cell hce m hm t htc)]
  obtain ⟨_, _, _, _, _, _, _, _, _, _, e1, e2, e3⟩ := htc
  intro q hq
  simp only [List.mem_cons, List.not_mem_nil, or_false] at hq
  rcases hq with rfl | rfl | rfl | rfl
  · exact hc _ (List.mem_of_getElem? e1)
  · exact hc _ (List.mem_of_getElem? e2)
  · exact hc _ (List.mem_of_getElem? e3)
  · exact hx _ hp'

/-! ## solid cells -/

theorem natTableAs_all {ts : List (Tet K)} (int : Bool) (x : List (V3 K)) :
    natTableAs int ts (x.map fun _ => List.range ts.length) x = some (x.map fun p => ts.map fun t => (globToNatTet p t).storeAs int) := by
  have hall : ∀ p : V3 K, (List.range ts.length).mapM (fun k => (ts[k]?).map fun t => ((globToNatTet p t).storeAs int).storeAs int) =
      some (ts.map fun t => (globToNatTet p t).storeAs int) := by
    intro p
    rw [mapM_some (g := fun k => (globToNatTet p (ts.getD k ⟨0, 0, 0, 0⟩)).storeAs int) fun k hk => by
      have := List.mem_range.1 hk
      simp [List.getD_eq_getElem?_getD, List.getElem?_eq_getElem this, n4_store_store]]
    congr 1
    refine List.ext_getElem (by simp) fun k hk hk' => ?_
    have : k < ts.length := by simpa using hk
    simp [List.getD_eq_getElem?_getD, List.getElem?_eq_getElem this]
  unfold natTableAs
  rw [mapM_some (g := fun q : V3 K × List Nat => ts.map fun t => (globToNatTet q.1 t).storeAs int) fun q hq => by
    have := (List.of_mem_zip hq).2
    obtain ⟨_, _, e⟩ := List.mem_map.1 this
    rw [← e]
    exact hall q.1]
  congr 1
  refine List.ext_getElem (by simp) fun k hk hk' => by simp

/-- **C111** for solid cells: with the default tolerance a point in integers passes if its weights in one of the tetrahedra are between minus one and
two; without tolerance no point passes. -/
theorem C111_solid_partial {coords : List (V3 K)} {topo tetmap : Topo} (hp : PathOK topo tetmap 4)
    (hnode : ∀ cell ∈ topo, ∀ k ∈ cell, k < coords.length)
    (hv : ∀ cell ∈ topo, ∀ m ∈ tetmap, ∀ t, TetOfCell coords cell m t → volTet t ≠ 0) (tol : K) (x : List (V3 K)) :
    ∃ r, pipCells3dAllAs true coords topo tetmap tol x = some r ∧ r.length = x.length ∧
      ∀ (i : Nat) (p : V3 K), x[i]? = some p → ∃ b, r[i]? = some b ∧
        (0 < tol → tol ≤ 1 → (b = true ↔ ∃ cell ∈ topo, ∃ m ∈ tetmap, ∃ t n, TetOfCell coords cell m t ∧ IsNat4 t p n ∧
          Loose n.n1 ∧ Loose n.n2 ∧ Loose n.n3 ∧ Loose n.n4)) ∧
        (0 < tol → tol ≤ 1 → (∃ cell ∈ topo, ∃ m ∈ tetmap, ∃ t, TetOfCell coords cell m t ∧ Hull t.corners p) → b = true) ∧
        (tol = 0 → b = false) := by
  obtain ⟨h1, ts, h2, h3, h4⟩ := simplices_exist (of := tetOf coords) hp hnode fun row hl hk => tetOfPoints_exists hl hk
  have hts : ∀ t, t ∈ ts ↔ ∃ cell ∈ topo, ∃ m ∈ tetmap, TetOfCell coords cell m t := by
    intro t
    rw [h4]
    constructor
    · rintro ⟨cell, hc, m, hm, h⟩
      exact ⟨cell, hc, m, hm, (tetOfCell_iff (hp.inside cell hc m hm)).1 h⟩
    · rintro ⟨cell, hc, m, hm, h⟩
      exact ⟨cell, hc, m, hm, (tetOfCell_iff (hp.inside cell hc m hm)).2 h⟩
  have key : ∀ p : V3 K, 0 < tol → tol ≤ 1 → (((ts.map fun t => (globToNatTet p t).storeAs true).map (pipTet tol)).any id = true ↔
      ∃ cell ∈ topo, ∃ m ∈ tetmap, ∃ t n, TetOfCell coords cell m t ∧ IsNat4 t p n ∧ Loose n.n1 ∧ Loose n.n2 ∧ Loose n.n3 ∧ Loose n.n4) := by
    intro p t0 t1
    rw [List.any_eq_true]
    constructor
    · rintro ⟨b, hb1, hb2⟩
      obtain ⟨n, hn, rfl⟩ := List.mem_map.1 hb1
      obtain ⟨t, ht, rfl⟩ := List.mem_map.1 hn
      obtain ⟨cell, hc, m, hm, htc⟩ := (hts t).1 ht
      exact ⟨cell, hc, m, hm, t, _, htc, C30_glob_to_nat (hv cell hc m hm t htc) p, (pipTet_int t0 t1 _).1 hb2⟩
    · rintro ⟨cell, hc, m, hm, t, n, htc, hn, hl⟩
      have e := C30_unique (hv cell hc m hm t htc) hn (C30_glob_to_nat (hv cell hc m hm t htc) p)
      subst e
      exact ⟨_, List.mem_map.2 ⟨_, List.mem_map.2 ⟨t, (hts t).2 ⟨cell, hc, m, hm, htc⟩, rfl⟩, rfl⟩, (pipTet_int t0 t1 _).2 hl⟩
  have hnat := natTableAs_all (ts := ts) true x
  rw [h3] at hnat
  refine ⟨(x.map fun p => ts.map fun t => (globToNatTet p t).storeAs true).map fun ns => (ns.map (pipTet tol)).any id,
    by simp only [pipCells3dAllAs, pipCells3dAs, h1, h2, hnat, Option.bind_some, Option.map_some],
    by simp, fun i p hi => ⟨((ts.map fun t => (globToNatTet p t).storeAs true).map (pipTet tol)).any id, by simp [hi], key p, ?_, ?_⟩⟩
  · rintro t0 t1 ⟨cell, hc, m, hm, t, htc, hin⟩
    obtain ⟨n, hn, p1, p2, p3, p4⟩ := hull4.1 hin
    refine (key p t0 t1).2 ⟨cell, hc, m, hm, t, n, htc, hn, ?_⟩
    have := hn.sum
    exact ⟨⟨by linarith, by linarith⟩, ⟨by linarith, by linarith⟩, ⟨by linarith, by linarith⟩, ⟨by linarith, by linarith⟩⟩
  · rintro rfl
    rw [List.any_eq_false]
    intro b hb
    obtain ⟨n, hn, rfl⟩ := List.mem_map.1 hb
    obtain ⟨t, -, rfl⟩ := List.mem_map.1 hn
    rw [id, pipTet_int_zero]
    decide

/-- **C111** for located points in integers: the weights in the tetrahedron of the reported cell are between minus one and two, and the reported local
coordinates are those of the weights cut off. -/
theorem C111_locate_partial {sched : List (Nat × Nat) → List (Nat × Nat)} (hs : ∀ w : List (Nat × Nat), w.Perm (sched w)) {coords : List (V3 K)}
    {topo tetmap : Topo} {lcoords : List (V3 K)} {nb : List (List Nat)} {tol : K} (h0 : 0 < tol) (ht1 : tol ≤ 1) {x : List (V3 K)}
    {r : List (Nat × Nat × V3 K)} (hr : locateAs true sched coords topo tetmap lcoords nb tol x = some r)
    (hv : ∀ cell ∈ topo, ∀ m ∈ tetmap, ∀ t, TetOfCell coords cell m t → volTet t ≠ 0) {i c : Nat} {loc : V3 K}
    (hm : (i, c, loc) ∈ r) :
    ∃ p cell m t l n, x[i]? = some p ∧ topo[c]? = some cell ∧ m ∈ tetmap ∧ TetOfCell coords cell m t ∧ TetOfPoints lcoords m l ∧
      IsNat4 t p n ∧ (Loose n.n1 ∧ Loose n.n2 ∧ Loose n.n3 ∧ Loose n.n4) ∧
      loc = truncK n.n1 • l.p0 + (truncK n.n2 • l.p1 + (truncK n.n3 • l.p2 + truncK n.n4 • l.p3)) := by
  simp only [locateAs, Option.bind_eq_some_iff] at hr
  obtain ⟨tt, h1, tets, h2, nat, h3, h4⟩ := hr
  obtain ⟨i', j, row, hi', hj, hone⟩ := (searchHits_mem hs h4).1 _ hm
  rw [List.getElem?_map, Option.map_eq_some_iff] at hi'
  obtain ⟨ns, hns, rfl⟩ := hi'
  rw [List.getElem?_map, Option.map_eq_some_iff] at hj
  obtain ⟨n, hn, hp⟩ := hj
  unfold natTableAs at h3
  have hil : i' < (x.zip nb).length := by rw [← mapM_length h3]; exact (List.getElem?_eq_some_iff.1 hns).1
  obtain ⟨ns', e1, e2⟩ := mapM_get h3 (List.getElem?_eq_getElem hil)
  rw [hns] at e2
  obtain rfl := Option.some.inj e2
  have hix : i' < x.length := by rw [List.length_zip] at hil; omega
  have hinb : i' < nb.length := by rw [List.length_zip] at hil; omega
  rw [List.getElem_zip] at e1
  simp only at e1
  have hjl : j < nb[i'].length := by rw [← mapM_length e1]; exact (List.getElem?_eq_some_iff.1 hn).1
  obtain ⟨n', f1, f2⟩ := mapM_get e1 (List.getElem?_eq_getElem hjl)
  rw [hn] at f2
  obtain rfl := Option.some.inj f2
  set τ := nb[i'][j] with hτ
  obtain ⟨t, ht, rfl⟩ := Option.map_eq_some_iff.1 f1
  rw [n4_store_store] at hp hn
  have hτl : τ < tt.length := by rw [← mapM_length h2]; exact (List.getElem?_eq_some_iff.1 ht).1
  obtain ⟨t', g1, g2⟩ := mapM_get h2 (List.getElem?_eq_getElem hτl)
  rw [ht] at g2
  obtain rfl := Option.some.inj g2
  obtain ⟨hlen, hrows⟩ := toTetRows_get h1
  have hT : 0 < tetmap.length := by
    rcases Nat.eq_zero_or_pos tetmap.length with h0 | h0
    · rw [hlen, h0] at hτl; omega
    · exact h0
  have hcl : τ / tetmap.length < topo.length := by
    rw [Nat.div_lt_iff_lt_mul hT]
    omega
  have hml : τ % tetmap.length < tetmap.length := Nat.mod_lt _ hT
  obtain ⟨row, r1, r2⟩ := hrows _ _ _ _ (List.getElem?_eq_getElem hcl) (List.getElem?_eq_getElem hml)
  have hsplit : τ / tetmap.length * tetmap.length + τ % tetmap.length = τ := Nat.div_add_mod' τ _
  rw [hsplit, List.getElem?_eq_getElem hτl] at r1
  obtain rfl := Option.some.inj r1
  have hcell := tetOf_gather r2 g1
  unfold locateOne at hone
  rw [List.getElem?_eq_getElem hinb, Option.bind_some, List.getElem?_eq_getElem hjl, Option.bind_some,
    ← hτ, List.getElem?_eq_getElem hml, Option.bind_some, hns, Option.bind_some, hn, Option.bind_some, Option.map_eq_some_iff] at hone
  obtain ⟨loc', k1, k2⟩ := hone
  simp only [Prod.mk.injEq] at k2
  obtain ⟨rfl, rfl, rfl⟩ := k2
  rw [ntetToLoc, Option.map_eq_some_iff] at k1
  obtain ⟨l, l1, rfl⟩ := k1
  exact ⟨_, _, _, t, l, globToNatTet x[i'] t, List.getElem?_eq_getElem hix, List.getElem?_eq_getElem hcl, List.getElem_mem hml, hcell, tetOf_some.1 l1,
    C30_glob_to_nat (hv _ (List.getElem_mem hcl) _ (List.getElem_mem hml) t hcell) _, (pipTet_int h0 ht1 _).1 hp, rfl⟩

/-! ## extrusion -/

/-- The coordinates are those of floating point numbers, cut off. -/
theorem extrudeAs_eq (int : Bool) (points : List (K × K)) (h : K) (zres : Nat) :
    extrudeCoordsAs int points h zres = (coordRows points h zres).map fun r => r.map (storeAs int) := by
  rw [← extrudeCoords_eq points h zres (.refl _), extrudeCoordsAs, extrudeCoords, extrudeCoords]
  have hz : storeAs int (0 : K) = 0 := by
    cases int
    · rfl
    · have := trunc_int (K := K) 0
      simpa [storeAs] using this
  have hrun : ∀ (w : List ((Nat × Nat) × K)) (m : Nat × Nat → K), runW (w.map fun x => (x.1, storeAs int x.2)) (fun q => storeAs int (m q)) =
      fun q => storeAs int (runW w m q) := by
    intro w
    induction w with
    | nil => intro m; rfl
    | cons x w ih =>
      intro m
      rw [List.map_cons, runW, runW, List.foldl_cons, List.foldl_cons]
      have := ih (Function.update m x.1 x.2)
      rw [runW, runW] at this
      convert this using 2
      funext q
      by_cases hq : q = x.1
      · subst hq; simp
      · simp [hq]
  have := hrun (extrudeCoordWrites points h zres) fun _ => 0
  rw [hz] at this
  rw [this]
  simp [toRows]

/-- **C111** for extrusion: points with integer coordinates in an array of integers give the same mesh as in floating point numbers if and only if the
layers are a whole number apart (and if there is any point). -/
theorem C111_extrude_partial {points : List (K × K)} (hi : ∀ q ∈ points, ∃ a b : ℤ, q = ((a : K), (b : K))) (hne : points ≠ []) (h : K) {zres : Nat} (hz : 0 < zres)
    (tris : List (Nat × Nat × Nat)) :
    (extrudeT3TET4As true points tris h zres = extrudeT3TET4 points tris h zres ↔ ∃ n : ℤ, h / (zres : K) = n) ∧
    (extrudeT3W6As true points tris h zres = extrudeT3W6 points tris h zres ↔ ∃ n : ℤ, h / (zres : K) = n) ∧
    ∃ C, (extrudeT3TET4As true points tris h zres).1 = C ∧ (extrudeT3W6As true points tris h zres).1 = C ∧ C.length = points.length * (zres + 1) ∧
      ∀ (i p : Nat) (q : K × K), i ≤ zres → points[p]? = some q →
        C[layerNode points.length i p]? = some [q.1, q.2, truncK (h * (i : Nat) / (zres : Nat))] := by
  have hL := layers_coordRows points h zres
  have hT : (extrudeT3TET4 points tris h zres).1 = coordRows points h zres := extrudeCoords_eq points h zres (.refl _)
  have hW : (extrudeT3W6 points tris h zres).1 = coordRows points h zres := extrudeCoords_eq points h zres (.refl _)
  have hget : ∀ (i p : Nat) (q : K × K), i ≤ zres → points[p]? = some q →
      ((coordRows points h zres).map fun r => r.map (storeAs true))[layerNode points.length i p]? = some [q.1, q.2, truncK (h * (i : Nat) / (zres : Nat))] := by
    intro i p q hi' hp
    rw [List.getElem?_map, hL.get i p q hi' hp]
    obtain ⟨a, b, rfl⟩ := hi q (List.mem_of_getElem? hp)
    simp [storeAs, trunc_int]
  have hz' : (zres : K) ≠ 0 := by exact_mod_cast (by omega : zres ≠ 0)
  have key : ((coordRows points h zres).map fun r => r.map (storeAs true)) = coordRows points h zres ↔ ∃ n : ℤ, h / (zres : K) = n := by
    constructor
    · intro he
      obtain ⟨q, hq⟩ : ∃ q, points[0]? = some q := by
        cases points with
        | nil => exact absurd rfl hne
        | cons q _ => exact ⟨q, rfl⟩
      have a := hget 1 0 q hz hq
      rw [he, hL.get 1 0 q hz hq] at a
      simp only [Option.some.injEq, List.cons.injEq, and_true, true_and, Nat.cast_one, mul_one] at a
      obtain ⟨n, hn, -⟩ := trunc_cases (h / (zres : K))
      exact ⟨n, a.trans hn⟩
    · rintro ⟨n, hn⟩
      refine List.ext_getElem (by simp) fun k hk hk' => ?_
      have hkl : k < points.length * (zres + 1) := by rw [← hL.length]; exact hk'
      have hP : 0 < points.length := List.length_pos_iff.2 hne
      have hd : k / points.length ≤ zres := by
        have := (Nat.div_lt_iff_lt_mul hP).2 (by rw [Nat.mul_comm (zres + 1)]; exact hkl)
        omega
      have hm : k % points.length < points.length := Nat.mod_lt _ hP
      have hk2 : layerNode points.length (k / points.length) (k % points.length) = k := by
        rw [layerNode]; exact Nat.div_add_mod' k _
      have a := hget _ _ _ hd (List.getElem?_eq_getElem hm)
      have b := hL.get _ _ _ hd (List.getElem?_eq_getElem hm)
      rw [hk2, List.getElem?_eq_getElem (by simpa using hk')] at a
      rw [hk2, List.getElem?_eq_getElem hk'] at b
      rw [Option.some.inj a, Option.some.inj b]
      have : h * ((k / points.length : Nat) : K) / (zres : K) = ((n * ((k / points.length : Nat) : ℤ) : ℤ) : K) := by
        rw [Int.cast_mul, Int.cast_natCast, ← hn]
        ring
      rw [this, trunc_int]
  refine ⟨?_, ?_, _, rfl, rfl, ?_, ?_⟩
  · rw [extrudeT3TET4As, extrudeAs_eq, Prod.ext_iff, hT]
    exact ⟨fun e => key.1 e.1, fun e => ⟨key.2 e, rfl⟩⟩
  · rw [extrudeT3W6As, extrudeAs_eq, Prod.ext_iff, hW]
    exact ⟨fun e => key.1 e.1, fun e => ⟨key.2 e, rfl⟩⟩
  · simp only [extrudeT3TET4As, extrudeAs_eq, List.length_map, hL.length]
  · simp only [extrudeT3TET4As, extrudeAs_eq]
    exact hget

end

/-! ## examples -/

/-- **C111** is false: a point outside of a triangle passes, one inside does not without tolerance. -/
theorem C111_plane_false : pipCells2dAs true ([⟨0, 0⟩, ⟨4, 0⟩, ⟨0, 4⟩] : List (P2 ℚ)) [[0, 1, 2]] [[0, 1, 2]] (1 / 10 ^ 12) [⟨-1, -1⟩, ⟨3, 3⟩, ⟨5, 5⟩] = some [true, true, false] ∧
    pipCells2d ([⟨0, 0⟩, ⟨4, 0⟩, ⟨0, 4⟩] : List (P2 ℚ)) [[0, 1, 2]] [[0, 1, 2]] (1 / 10 ^ 12) [⟨-1, -1⟩, ⟨3, 3⟩, ⟨5, 5⟩] = some [false, false, false] ∧
    pipCells2dAs true ([⟨0, 0⟩, ⟨4, 0⟩, ⟨0, 4⟩] : List (P2 ℚ)) [[0, 1, 2]] [[0, 1, 2]] 0 [⟨1, 1⟩] = some [false] ∧
    pipCells2d ([⟨0, 0⟩, ⟨4, 0⟩, ⟨0, 4⟩] : List (P2 ℚ)) [[0, 1, 2]] [[0, 1, 2]] 0 [⟨1, 1⟩] = some [true] := by
  decide +kernel

/-- **C111** is false for solids: a point outside passes. -/
theorem C111_solid_false : pipCells3dAllAs true ([⟨0, 0, 0⟩, ⟨4, 0, 0⟩, ⟨0, 4, 0⟩, ⟨0, 0, 4⟩] : List (V3 ℚ)) [[0, 1, 2, 3]] [[0, 1, 2, 3]] (1 / 10 ^ 12) [⟨-1, -1, -1⟩] = some [true] ∧
    pipCells3dAll ([⟨0, 0, 0⟩, ⟨4, 0, 0⟩, ⟨0, 4, 0⟩, ⟨0, 0, 4⟩] : List (V3 ℚ)) [[0, 1, 2, 3]] [[0, 1, 2, 3]] (1 / 10 ^ 12) [⟨-1, -1, -1⟩] = some [false] := by
  decide +kernel

/-- **C111** is false for located points: the centre of a tetrahedron is reported at the first corner of the master cell, and so is a point outside. -/
theorem C111_locate_false :
    locateAs true id ([⟨0, 0, 0⟩, ⟨4, 0, 0⟩, ⟨0, 4, 0⟩, ⟨0, 0, 4⟩] : List (V3 ℚ)) [[0, 1, 2, 3]] [[0, 1, 2, 3]] [⟨0, 0, 0⟩, ⟨1, 0, 0⟩, ⟨0, 1, 0⟩, ⟨0, 0, 1⟩]
      [[0], [0]] (1 / 10 ^ 12) [⟨1, 1, 1⟩, ⟨-1, -1, -1⟩] = some [(0, 0, ⟨0, 0, 0⟩), (1, 0, ⟨0, 0, 0⟩)] ∧
    locate id ([⟨0, 0, 0⟩, ⟨4, 0, 0⟩, ⟨0, 4, 0⟩, ⟨0, 0, 4⟩] : List (V3 ℚ)) [[0, 1, 2, 3]] [[0, 1, 2, 3]] [⟨0, 0, 0⟩, ⟨1, 0, 0⟩, ⟨0, 1, 0⟩, ⟨0, 0, 1⟩]
      [[0], [0]] (1 / 10 ^ 12) [⟨1, 1, 1⟩, ⟨-1, -1, -1⟩] = some [(0, 0, ⟨1 / 4, 1 / 4, 1 / 4⟩)] := by
  decide +kernel

/-- **C111** is false for extrusion: two layers of height one half become one of height zero and one of height one. -/
theorem C111_extrude_false : extrudeT3TET4As true ([(0, 0), (1, 0), (0, 1)] : List (ℚ × ℚ)) [(0, 1, 2)] 1 2 =
      ([[0, 0, 0], [1, 0, 0], [0, 1, 0], [0, 0, 0], [1, 0, 0], [0, 1, 0], [0, 0, 1], [1, 0, 1], [0, 1, 1]],
       [[0, 1, 2, 5], [0, 1, 5, 4], [0, 4, 5, 3], [3, 4, 5, 8], [3, 4, 8, 7], [3, 7, 8, 6]]) ∧
    (extrudeT3TET4 ([(0, 0), (1, 0), (0, 1)] : List (ℚ × ℚ)) [(0, 1, 2)] 1 2).1 =
      [[0, 0, 0], [1, 0, 0], [0, 1, 0], [0, 0, 1 / 2], [1, 0, 1 / 2], [0, 1, 1 / 2], [0, 0, 1], [1, 0, 1], [0, 1, 1]] := by
  decide +kernel

/-- The triangle of `C111_plane_false` and the tetrahedron of `C111_solid_false` meet the hypotheses. -/
example : PathOK [[0, 1, 2]] [[0, 1, 2]] 3 ∧ Ccw (⟨⟨0, 0⟩, ⟨4, 0⟩, ⟨0, 4⟩⟩ : Tri ℚ) ∧ PathOK [[0, 1, 2, 3]] [[0, 1, 2, 3]] 4 ∧
    volTet (⟨⟨0, 0, 0⟩, ⟨4, 0, 0⟩, ⟨0, 4, 0⟩, ⟨0, 0, 4⟩⟩ : Tet ℚ) ≠ 0 :=
  ⟨⟨by decide, by decide⟩, by unfold Ccw; decide +kernel, ⟨by decide, by decide⟩, by decide +kernel⟩

/-- Layers one apart, and points of triangles with area one half. -/
example : extrudeT3W6As true ([(0, 0), (1, 0), (0, 1)] : List (ℚ × ℚ)) [(0, 1, 2)] 2 2 = extrudeT3W6 [(0, 0), (1, 0), (0, 1)] [(0, 1, 2)] 2 2 ∧
    pipCells2dAs true ([⟨0, 0⟩, ⟨1, 0⟩, ⟨1, 1⟩, ⟨0, 1⟩] : List (P2 ℚ)) [[0, 1, 2, 3]] [[0, 1, 2], [0, 2, 3]] (1 / 10 ^ 12) [⟨1, 1⟩, ⟨2, 1⟩, ⟨0, 1⟩] = some [true, false, true] := by
  decide +kernel

end PM
