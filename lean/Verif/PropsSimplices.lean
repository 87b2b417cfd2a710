import Verif.Simplices
import Verif.PropsTransform
import Verif.PropsAreas
import Verif.PropsTet
import Verif.PropsVolumes

/-!
# C89: cells as collections of simplices
-/

namespace PM

/-! ## specification -/

/-- Number of nodes of a cell of the class. -/
def CellKind.nnode : CellKind → Nat
  | .line => 2
  | .T3 => 3
  | .T6 => 6
  | .Q4 => 4
  | .Q9 => 9
  | .TET4 => 4
  | .TET10 => 10
  | .H8 => 8
  | .H27 => 27
  | .W6 => 6
  | .W18 => 18

/-- Row `i * len(map) + k` of the result is what row `k` of the map selects from cell `i`, and there are no other rows. -/
structure SplitBy (topo : Topo) (map : List (List Nat)) (r : Topo) : Prop where
  len : r.length = topo.length * map.length
  row : ∀ i k row m, topo[i]? = some row → map[k]? = some m → ∃ s, r[i * map.length + k]? = some s ∧ s.length = m.length ∧
    ∀ (j q : Nat), m[j]? = some q → s[j]? = row[q]?

theorem splitBy_transformed {topo : Topo} {map : List (List Nat)} {n : Nat} (h : PathOK topo map n) :
    SplitBy topo map (transformed topo map 0) := by
  refine ⟨by rw [length_transformed, Nat.mul_comm], ?_⟩
  intro i k row m hi hk
  refine ⟨m.map fun q => row.getD q 0, ?_, by simp, ?_⟩
  · rw [transformed_row (List.getElem?_eq_some_iff.1 hk).1, hi, hk]
    rfl
  · intro j q hj
    have := h.inside row (List.mem_of_getElem? hi) m (List.mem_of_getElem? hk) q (List.mem_of_getElem? hj)
    simp [hj, List.getElem?_eq_getElem this]

theorem transformTopology_eq {topo : Topo} {map : List (List Nat)} {n : Nat} (h : PathOK topo map n) :
    transformTopology topo map n 0 = some (transformed topo map 0) := transformResult_eq h 0 fun _ => mem_transformWrites

theorem pathOK_of_width {topo : Topo} {map : List (List Nat)} {n w : Nat} (h : ∀ r ∈ topo, r.length = w)
    (hm : ∀ p ∈ map, p.length = n ∧ ∀ q ∈ p, q < w) : PathOK topo map n :=
  ⟨fun p hp => (hm p hp).1, fun c hc p hp q hq => by rw [h c hc]; exact (hm p hp).2 q hq⟩

/-! ## triangles -/

/-- **C89** (triangles): every class of polygons splits its cells as its `trimap` says, the cells one after the other and the triangles of a
cell in the order of the map. -/
theorem C89_triangles (k : CellKind) (map : List (List Nat)) (hk : trimapOf k = some map) (topo : Topo)
    (h : ∀ r ∈ topo, r.length = k.nnode) : ∃ r, toTriangles k topo = some r ∧ SplitBy topo map r := by
  match k, hk with
  | .T3, hk =>
    obtain rfl : trimapT3 = map := by simpa [trimapOf] using hk
    refine ⟨topo, rfl, ?_⟩
    refine ⟨by simp [trimapT3], ?_⟩
    intro i k row m hi hkm
    have hk0 : k = 0 := by
      have := (List.getElem?_eq_some_iff.1 hkm).1
      simp [trimapT3] at this
      exact this
    subst hk0
    have hm : m = [0, 1, 2] := by simpa [trimapT3] using hkm.symm
    subst hm
    have hl := h row (List.mem_of_getElem? hi)
    refine ⟨row, by simpa [trimapT3] using hi, by rw [hl]; rfl, ?_⟩
    intro j q hj
    match j, hj with
    | 0, hj => simp at hj; subst hj; rfl
    | 1, hj => simp at hj; subst hj; rfl
    | 2, hj => simp at hj; subst hj; rfl
    | j + 3, hj => simp at hj
  | .T6, hk =>
    obtain rfl : trimapT6 true = map := by simpa [trimapOf] using hk
    have hp : PathOK topo pathT6T3 3 := pathOK_of_width h (by decide)
    exact ⟨_, transformTopology_eq hp, splitBy_transformed hp⟩
  | .Q4, hk =>
    obtain rfl : trimapQ4 = map := by simpa [trimapOf] using hk
    have hp : PathOK topo pathQ4T3 3 := pathOK_of_width h (by decide)
    exact ⟨_, transformTopology_eq hp, splitBy_transformed hp⟩
  | .Q9, hk =>
    obtain rfl : trimapQ9 = map := by simpa [trimapOf] using hk
    have hp : PathOK topo pathQ9Q4 4 := pathOK_of_width h (by decide)
    obtain ⟨path, t1, t, e1, e2, e3, e4⟩ := C10_compose_trmap topo pathQ9Q4 pathQ4T3 4 3 0 hp (by decide)
    have e1' : composeTrmap pathQ9Q4 pathQ4T3 = some trimapQ9 := by decide +kernel
    obtain rfl : path = trimapQ9 := by rw [e1'] at e1; simpa using e1.symm
    have hp' : PathOK topo trimapQ9 3 := pathOK_of_width h (by decide)
    refine ⟨t, by rw [toTriangles, e2]; exact e3, ?_⟩
    rw [transformTopology_eq hp', Option.some.injEq] at e4
    rw [← e4]
    exact splitBy_transformed hp'

/-- A case: two nine-noded quadrilaterals. -/
example : toTriangles .Q9 [[0, 2, 8, 6, 1, 5, 7, 3, 4], [2, 9, 10, 8, 11, 12, 13, 5, 14]] = some
    [[0, 1, 4], [0, 4, 3], [1, 2, 5], [1, 5, 4], [4, 5, 8], [4, 8, 7], [3, 4, 7], [3, 7, 6],
     [2, 11, 14], [2, 14, 5], [11, 9, 12], [11, 12, 14], [14, 12, 10], [14, 10, 13], [5, 14, 13], [5, 13, 8]] := by decide +kernel

/-! ## tetrahedra -/

theorem tetmapOf_width (k : CellKind) (map : List (List Nat)) (hk : tetmapOf k = some map) :
    map ≠ [] ∧ ∀ p ∈ map, p.length = 4 ∧ ∀ q ∈ p, q < k.nnode := by
  have check : ∀ k : CellKind, ∀ map ∈ tetmapOf k, map ≠ [] ∧ ∀ p ∈ map, p.length = 4 ∧ ∀ q ∈ p, q < k.nnode := by
    intro k
    cases k <;> decide +kernel
  exact check k map hk

/-- **C89** (tetrahedra): every class of polyhedra with a `tetmap` splits its cells as the map says. -/
theorem C89_tetrahedra (k : CellKind) (map : List (List Nat)) (hk : tetmapOf k = some map) (topo : Topo)
    (h : ∀ r ∈ topo, r.length = k.nnode) : ∃ r, toTetrahedra k topo = some r ∧ SplitBy topo map r ∧ ∀ s ∈ r, s.length = 4 := by
  have hw := (tetmapOf_width k map hk).2
  have hp : PathOK topo map 4 := pathOK_of_width h hw
  have hs := splitBy_transformed hp
  have h4 : ∀ s ∈ transformed topo map 0, s.length = 4 := by
    intro s hs
    simp only [transformed, List.mem_flatMap, List.mem_map] at hs
    obtain ⟨c, -, p, hp, rfl⟩ := hs
    simp [(hw p hp).1]
  by_cases hk4 : k = .TET4
  · subst hk4
    obtain rfl : [[0, 1, 2, 3]] = map := by simpa [tetmapOf] using hk
    have e : transformed topo [[0, 1, 2, 3]] 0 = topo := by
      unfold transformed
      have : ∀ c ∈ topo, ([[0, 1, 2, 3]].map fun p : List Nat => p.map fun q => c.getD q 0) = [c] := by
        intro c hc
        have hl := h c hc
        match c, hl with
        | [a, b, d, e], _ => rfl
      rw [List.flatMap_congr this]
      simp
    rw [e] at hs h4
    exact ⟨topo, rfl, hs, h4⟩
  · have : toTetrahedra k topo = (tetmapOf k).bind fun m => transformTopology topo m 4 0 := by
      cases k <;> first | rfl | exact absurd rfl hk4
    exact ⟨_, by rw [this, hk]; exact transformTopology_eq hp, hs, h4⟩

theorem reshapeTets_spec {n m : Nat} {rows : Topo} (hl : rows.length = n * m) (h4 : ∀ s ∈ rows, s.length = 4) :
    ∃ R, reshapeTets n m rows = some R ∧ R.flatten = rows ∧ R.length = n ∧ ∀ b ∈ R, b.length = m := by
  refine ⟨_, if_pos ⟨hl, h4⟩, ?_, by simp, ?_⟩
  · clear h4
    induction n generalizing rows with
    | zero =>
      have : rows = [] := List.length_eq_zero_iff.1 (by simpa using hl)
      simp [this]
    | succ n ih =>
      rw [List.range_succ_eq_map, List.map_cons, List.flatten_cons, List.map_map, Nat.zero_mul, List.drop_zero]
      have e : ((fun i => (rows.drop (i * m)).take m) ∘ Nat.succ) = fun i => ((rows.drop m).drop (i * m)).take m := by
        funext i
        simp only [Function.comp, List.drop_drop, Nat.succ_mul]
        rw [Nat.add_comm]
      rw [e, ih (by rw [List.length_drop, hl, Nat.succ_mul]; omega), List.take_append_drop]
  · intro b hb
    obtain ⟨i, hi, rfl⟩ := List.mem_map.1 hb
    rw [List.mem_range] at hi
    rw [List.length_take, List.length_drop, hl]
    have : (i + 1) * m ≤ n * m := Nat.mul_le_mul_right _ hi
    rw [Nat.succ_mul] at this
    omega

/-- **C89** (nested): `flatten=False` has one entry per cell with the tetrahedra of that cell, and without the nesting it is the result of
`flatten=True`. -/
theorem C89_nested (k : CellKind) (map : List (List Nat)) (hk : tetmapOf k = some map) (topo : Topo)
    (h : ∀ r ∈ topo, r.length = k.nnode) :
    ∃ R, toTetrahedraNested k topo = some R ∧ toTetrahedra k topo = some R.flatten ∧ R.length = topo.length ∧
      ∀ b ∈ R, b.length = map.length := by
  obtain ⟨r, e, hs, h4⟩ := C89_tetrahedra k map hk topo h
  obtain ⟨R, h1, h2, h3, h5⟩ := reshapeTets_spec (n := topo.length) (m := map.length) hs.len h4
  refine ⟨R, ?_, by rw [h2, e], h3, h5⟩
  by_cases hk4 : k = .TET4
  · subst hk4
    obtain rfl : [[0, 1, 2, 3]] = map := by simpa [tetmapOf] using hk
    obtain rfl : topo = r := by simpa [toTetrahedra] using e
    exact h1
  · have e1 : toTetrahedra k topo = (tetmapOf k).bind fun m => transformTopology topo m 4 0 := by
      cases k <;> first | rfl | exact absurd rfl hk4
    have e2 : toTetrahedraNested k topo =
        (tetmapOf k).bind fun m => (transformTopology topo m 4 0).bind fun t => reshapeTets topo.length m.length t := by
      cases k <;> first | rfl | exact absurd rfl hk4
    rw [e1, hk] at e
    rw [e2, hk]
    simp only [Option.bind_some] at e ⊢
    rw [e]
    exact h1

/-- A case: a wedge with 18 nodes has 24 tetrahedra. -/
example : (toTetrahedra .W18 [List.range 18]).map List.length = some 24 ∧
    (toTetrahedraNested .H8 [List.range 8, List.range 8]).map (List.map List.length) = some [5, 5] := by decide +kernel

/-- **C89** (simplices): `to_simplices` is `to_triangles` or `to_tetrahedra`. -/
theorem C89_simplices (fuel : Nat) (k : CellKind) (topo : Topo) :
    (k.ndim = 2 → toSimplices (fuel + 1) k topo = toTriangles k topo) ∧ (k.ndim = 3 → toSimplices (fuel + 1) k topo = toTetrahedra k topo) := by
  constructor <;> · intro h; simp only [toSimplices, h]

/-- **C89** is false for lines: `to_simplices` never ends. -/
theorem C89_lines_false (fuel : Nat) (topo : Topo) : toSimplices fuel .line topo = none := by
  induction fuel with
  | zero => rfl
  | succ n ih => exact ih

/-- **C89** is false for quadratic tetrahedra and triquadratic hexahedra: they have no tetrahedra, and
the inherited method gives no volumes. -/
theorem C89_quadratic_false {K : Type} [Field K] [LinearOrder K] (coords : List (V3 K)) (topo : Topo) :
    toTetrahedra .TET10 topo = none ∧ toTetrahedra .H27 topo = none ∧ volumes3d .TET10 coords topo = none ∧
      volumes3d .H27 coords topo = none := ⟨rfl, rfl, rfl, rfl⟩

/-! ## volumes -/

section
variable {K : Type} [Field K] [LinearOrder K]

/-- The tetrahedra a map selects from the points of a cell. -/
def cutTets (map : List (List Nat)) (P : List (V3 K)) : List (Tet K) :=
  map.map fun m => ⟨P.getD (m.getD 0 0) 0, P.getD (m.getD 1 0) 0, P.getD (m.getD 2 0) 0, P.getD (m.getD 3 0) 0⟩

/-- The absolute volume of a tetrahedron. -/
def tetVolume (t : Tet K) : K := |V3.det3 (t.p1 - t.p0) (t.p2 - t.p0) (t.p3 - t.p0) / 6|

/-- **C89** (volumes): the volume of a cell is the sum of the volumes of its tetrahedra. -/
theorem C89_volumes [CharZero K] (k : CellKind) (map : List (List Nat)) (hk : tetmapOf k = some map) (coords : List (V3 K)) (topo : Topo)
    (hne : topo ≠ []) (h : ∀ r ∈ topo, r.length = k.nnode) (pts : List (List (V3 K)))
    (hp : topo.mapM (fun row => row.mapM fun n => coords[n]?) = some pts) :
    ∃ V, volumes3d k coords topo = some V ∧ V.length = topo.length ∧
      ∀ (e : Nat) (P : List (V3 K)), pts[e]? = some P → V[e]? = some ((cutTets map P).map tetVolume).sum := by
  have hw := (tetmapOf_width k map hk).2
  have hpok : PathOK topo map 4 := pathOK_of_width h hw
  have hpl := mapM_length hp
  have htt : toTetrahedra k topo = some (transformed topo map 0) := by
    obtain ⟨r, e, hs, h4⟩ := C89_tetrahedra k map hk topo h
    by_cases hk4 : k = .TET4
    · subst hk4
      obtain rfl : [[0, 1, 2, 3]] = map := by simpa [tetmapOf] using hk
      unfold transformed toTetrahedra
      have : ∀ c ∈ topo, ([[0, 1, 2, 3]].map fun p : List Nat => p.map fun q => c.getD q 0) = [c] := by
        intro c hc
        have hl := h c hc
        match c, hl with
        | [a, b, d, e], _ => rfl
      rw [List.flatMap_congr this]
      simp
    · have : toTetrahedra k topo = (tetmapOf k).bind fun m => transformTopology topo m 4 0 := by
        cases k <;> first | rfl | exact absurd rfl hk4
      rw [this, hk]
      exact transformTopology_eq hpok
  have htets : (transformed topo map 0).mapM (tetOf coords) = some (pts.flatMap (cutTets map)) := by
    clear htt hpl
    have hpf := mapM_eq_some_iff.1 hp
    clear hp hne hpok
    induction hpf with
    | nil => rfl
    | @cons row P topo pts h1 h2 ih =>
      have hrow := h row List.mem_cons_self
      have hP : P.length = row.length := mapM_length h1
      have hcut : (map.map fun p => p.map fun q => row.getD q 0).mapM (tetOf coords) = some (cutTets map P) := by
        rw [List.mapM_map]
        apply mapM_some
        intro m hm
        obtain ⟨hm4, hmq⟩ := hw m hm
        match m, hm4, hmq with
        | [a, b, c, d], _, hmq =>
          have hget : ∀ q, q < k.nnode → coords[row.getD q 0]? = some (P.getD q 0) := by
            intro q hq
            obtain ⟨p, e1, e2⟩ := mapM_get h1 (i := q) (List.getElem?_eq_getElem (show q < row.length by omega))
            rw [List.getD_eq_getElem?_getD, List.getElem?_eq_getElem (show q < row.length by omega), Option.getD_some, e1,
              List.getD_eq_getElem?_getD, e2, Option.getD_some]
          simp only [Function.comp, List.map_cons, List.map_nil, tetOf]
          rw [hget a (hmq a (by simp)), hget b (hmq b (by simp)), hget c (hmq c (by simp)), hget d (hmq d (by simp))]
          rfl
      have ih' := ih fun r hr => h r (List.mem_cons_of_mem _ hr)
      have : transformed (row :: topo) map 0 = (map.map fun p => p.map fun q => row.getD q 0) ++ transformed topo map 0 := rfl
      rw [this, List.mapM_append, hcut, ih']
      rfl
  have hptsne : pts ≠ [] := by
    rintro rfl
    exact hne (List.length_eq_zero_iff.1 hpl.symm)
  have hvol : volTetBulk (pts.flatMap (cutTets map)) = pts.flatMap fun P => (cutTets map P).map tetVolume := by
    unfold volTetBulk
    rw [List.map_map, List.map_flatMap]
    apply List.flatMap_congr
    intro P _
    apply List.map_congr_left
    intro t _
    simp only [Function.comp, tetVolume, ← C30_det]
    rw [mul_div_cancel_left₀ _ (by norm_num : (6 : K) ≠ 0)]
  refine ⟨pts.map fun P => ((cutTets map P).map tetVolume).sum, ?_, ?_, ?_⟩
  · rw [volumes3d, htt, Option.bind_some, htets, Option.bind_some, hvol, ← hpl]
    exact sumBlocks_flatMap (n := map.length) hptsne fun P _ => by simp [cutTets]
  · simp [hpl]
  · intro e P he
    simp [he]

end

/-- **C89** is false for blocks without cells: division by zero. -/
theorem C89_empty_false {K : Type} [Field K] [LinearOrder K] (coords : List (V3 K)) : volumes3d .H8 coords [] = none := rfl

/-! ## cells that are images of the master cell -/

section
variable {K : Type} [Field K] [LinearOrder K] [IsStrictOrderedRing K]

/-- Nodes of the master cell, doubled. -/
def masterOf : CellKind → List (V3 Int)
  | .TET4 => lcTET4
  | .H8 => lcH8
  | .W6 => lcW6
  | .W18 => lcW18
  | _ => []

/-- Volume of the master cell: the unit simplex, the cube of side 2, the wedge over the unit triangle with height 2. -/
def masterVolume : CellKind → ℚ
  | .TET4 => 1 / 6
  | .H8 => 8
  | .W6 => 1
  | .W18 => 1
  | _ => 0

omit [LinearOrder K] [IsStrictOrderedRing K] in
theorem det3_half_app [CharZero K] (A : Aff K) (a b c d : V3 Int) :
    V3.det3 (A.app (half b) - A.app (half a)) (A.app (half c) - A.app (half a)) (A.app (half d) - A.app (half a)) =
      A.det * ((V3.vol6 a b c d : Int) : K) / 8 := by
  simp only [V3.vol6, V3.det3, Aff.app, Aff.det, half, V3.sub_x, V3.sub_y, V3.sub_z, V3.add_x, V3.add_y, V3.add_z, V3.smul_x, V3.smul_y,
    V3.smul_z]
  push_cast
  ring

/-- Six times the volumes of the tetrahedra of the doubled master cell. -/
def intVols (k : CellKind) (map : List (List Nat)) : List Int := map.map fun m =>
  V3.vol6 ((masterOf k).getD (m.getD 0 0) 0) ((masterOf k).getD (m.getD 1 0) 0) ((masterOf k).getD (m.getD 2 0) 0)
    ((masterOf k).getD (m.getD 3 0) 0)

/-- **C89** (volumes of affine cells): for every class with a `tetmap` the volume of the image of the master cell under an affine map is
the volume of the master cell times the absolute determinant. -/
theorem C89_affine (k : CellKind) (map : List (List Nat)) (hk : tetmapOf k = some map) (A : Aff K) :
    ((cutTets map ((masterOf k).map fun v => A.app (half v))).map tetVolume).sum = |A.det| * (masterVolume k : K) := by
  have hint : (∀ v ∈ intVols k map, 0 ≤ v) ∧ ((intVols k map).sum : ℚ) = 48 * masterVolume k ∧
      ∀ m ∈ map, m.getD 0 0 < (masterOf k).length ∧ m.getD 1 0 < (masterOf k).length ∧ m.getD 2 0 < (masterOf k).length ∧
        m.getD 3 0 < (masterOf k).length := by
    have check : ∀ k : CellKind, ∀ map ∈ tetmapOf k, (∀ v ∈ intVols k map, 0 ≤ v) ∧ ((intVols k map).sum : ℚ) = 48 * masterVolume k ∧
        ∀ m ∈ map, m.getD 0 0 < (masterOf k).length ∧ m.getD 1 0 < (masterOf k).length ∧ m.getD 2 0 < (masterOf k).length ∧
          m.getD 3 0 < (masterOf k).length := by
      intro k
      cases k <;> decide +kernel
    exact check k map hk
  obtain ⟨hpos, hsum, hlt⟩ := hint
  have hget : ∀ q, q < (masterOf k).length → ((masterOf k).map fun v => A.app (half v)).getD q 0 = A.app (half ((masterOf k).getD q 0)) := by
    intro q hq
    simp [List.getD_eq_getElem?_getD, List.getElem?_eq_getElem hq]
  have e : (cutTets map ((masterOf k).map fun v => A.app (half v))).map tetVolume =
      (intVols k map).map fun v : Int => |A.det| / 48 * (v : K) := by
    rw [cutTets, List.map_map, intVols, List.map_map]
    apply List.map_congr_left
    intro m hm
    obtain ⟨h0, h1, h2, h3⟩ := hlt m hm
    simp only [Function.comp, tetVolume]
    rw [hget _ h0, hget _ h1, hget _ h2, hget _ h3, det3_half_app]
    have hp := hpos _ (List.mem_map.2 ⟨m, hm, rfl⟩)
    set v := V3.vol6 ((masterOf k).getD (m.getD 0 0) 0) ((masterOf k).getD (m.getD 1 0) 0) ((masterOf k).getD (m.getD 2 0) 0)
      ((masterOf k).getD (m.getD 3 0) 0)
    have hv : (0 : K) ≤ (v : K) := by exact_mod_cast hp
    rw [show A.det * (v : K) / 8 / 6 = A.det * ((v : K) / 48) by ring, abs_mul, abs_of_nonneg (a := (v : K) / 48) (by positivity)]
    ring
  have hs : (((intVols k map).sum : Int) : K) = 48 * (masterVolume k : K) := by
    rw [← Rat.cast_intCast (α := K), hsum, Rat.cast_mul, Rat.cast_ofNat]
  rw [e, List.sum_map_mul_left]
  have : ((intVols k map).map fun v : Int => (v : K)).sum = (((intVols k map).sum : Int) : K) := by
    generalize intVols k map = l
    induction l with
    | nil => rw [List.map_nil, List.sum_nil, List.sum_nil, Int.cast_zero]
    | cons a l ih => rw [List.map_cons, List.sum_cons, List.sum_cons, ih, Int.cast_add]
  rw [this, hs]
  ring

/-- **C89** (volumes of affine cells, in the mesh): the entry of a cell whose points are the image of the master cell. -/
theorem C89_affine_volumes (k : CellKind) (map : List (List Nat)) (hk : tetmapOf k = some map) (coords : List (V3 K)) (topo : Topo)
    (hne : topo ≠ []) (h : ∀ r ∈ topo, r.length = k.nnode) (pts : List (List (V3 K)))
    (hp : topo.mapM (fun row => row.mapM fun n => coords[n]?) = some pts) :
    ∃ V, volumes3d k coords topo = some V ∧ V.length = topo.length ∧
      ∀ (e : Nat) (A : Aff K), pts[e]? = some ((masterOf k).map fun v => A.app (half v)) → V[e]? = some (|A.det| * (masterVolume k : K)) := by
  obtain ⟨V, h1, h2, h3⟩ := C89_volumes k map hk coords topo hne h pts hp
  exact ⟨V, h1, h2, fun e A he => by rw [h3 e _ he, C89_affine k map hk A]⟩

end

/-- **C89** is false for other wedges (`Wedge.volumes` of polyhedron.py): two of the three tetrahedra overlap. The
prism over the unit triangle with heights 1, 1 and 2 consists
of the tetrahedra with the volumes 1/6, 1/6 and 1/3, the code gives 5/6. -/
theorem C89_wedge_false :
    volumes3d .W6 ([⟨0, 0, 0⟩, ⟨1, 0, 0⟩, ⟨0, 1, 0⟩, ⟨0, 0, 1⟩, ⟨1, 0, 1⟩, ⟨0, 1, 2⟩] : List (V3 ℚ)) [[0, 1, 2, 3, 4, 5]] = some [5 / 6] ∧
      (cutTets [[0, 1, 2, 4], [0, 4, 5, 3], [0, 4, 2, 5]]
        ([⟨0, 0, 0⟩, ⟨1, 0, 0⟩, ⟨0, 1, 0⟩, ⟨0, 0, 1⟩, ⟨1, 0, 1⟩, ⟨0, 1, 2⟩] : List (V3 ℚ))).map tetVolume = [1 / 6, 1 / 6, 1 / 3] := by
  decide +kernel

/-- A case: the volume of a box. -/
example : volumes3d .H8 ([⟨0, 0, 0⟩, ⟨2, 0, 0⟩, ⟨2, 3, 0⟩, ⟨0, 3, 0⟩, ⟨0, 0, 4⟩, ⟨2, 0, 4⟩, ⟨2, 3, 4⟩, ⟨0, 3, 4⟩] : List (V3 ℚ))
    [[0, 1, 2, 3, 4, 5, 6, 7]] = some [24] := by decide +kernel

end PM
