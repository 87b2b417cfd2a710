import Verif.Plate
import Verif.PropsMisc
import Verif.PropsGrid
import Verif.PropsGridNamed
import Verif.PropsTopo
import Verif.PropsTiling
import Verif.PropsCells

/-!
# Property C62: the ribbed plate
-/

namespace PM

section
set_option linter.unusedSectionVars false
variable {K : Type} [Field K] [LinearOrder K] [IsStrictOrderedRing K]

/-! ## specification -/

/-- The box from `lo` to `hi`. -/
def InB (lo hi p : V3 K) : Prop := (lo.x ≤ p.x ∧ p.x ≤ hi.x) ∧ (lo.y ≤ p.y ∧ p.y ≤ hi.y) ∧ (lo.z ≤ p.z ∧ p.z ≤ hi.z)

/-- Its interior. -/
def InsideB (lo hi p : V3 K) : Prop := (lo.x < p.x ∧ p.x < hi.x) ∧ (lo.y < p.y ∧ p.y < hi.y) ∧ (lo.z < p.z ∧ p.z < hi.z)

/-- The nodes `r` are those of the image of the master cell `lc` under `A`, in its order. -/
def RowAff (lc : List (V3 Int)) (C : List (List K)) (r : List Nat) (A : Aff K) : Prop :=
  r.length = lc.length ∧ ∀ n, n < lc.length → ∃ node, r[n]? = some node ∧
    ∃ P : V3 K, P = A.app (half (lc.getD n 0)) ∧ C[node]? = some [P.x, P.y, P.z]

/-- The nodes `r` are those of the box from `lo` to `hi`, in the order of the master cell `lc`. -/
def RowBox (lc : List (V3 Int)) (C : List (List K)) (r : List Nat) (lo hi : V3 K) : Prop :=
  RowAff lc C r (boxAff lo.x hi.x lo.y hi.y lo.z hi.z)

/-- The ribs asked for by the arguments: there are none without a width or a height; the eccentricity is zero if it is not given. -/
def IsRibs (a : RibArgs K) (r : Option (K × K × K)) : Prop :=
  ∀ w h e, r = some (w, h, e) ↔ a.w = some w ∧ a.h = some h ∧ (a.e = some e ∨ (a.e = none ∧ e = 0))

/-- The plate together with its ribs. A rib is given by width, height and eccentricity. -/
def RibbedPlate (lx ly t : K) (rx ry : Option (K × K × K)) (p : V3 K) : Prop :=
  (|p.x| ≤ lx / 2 ∧ |p.y| ≤ ly / 2 ∧ |p.z| ≤ t / 2) ∨
  (∃ w h e, rx = some (w, h, e) ∧ |p.x| ≤ lx / 2 ∧ |p.y| ≤ w / 2 ∧ |p.z - e| ≤ h / 2) ∨
  (∃ w h e, ry = some (w, h, e) ∧ |p.x| ≤ w / 2 ∧ |p.y| ≤ ly / 2 ∧ |p.z - e| ≤ h / 2)

/-- The cells are boxes that cover exactly the set `S` and do not overlap; no two points coincide and all are used. -/
structure BoxMesh (lc : List (V3 Int)) (C : List (List K)) (T : Topo) (S : V3 K → Prop) : Prop where
  box : ∀ r ∈ T, ∃ lo hi, lo.x < hi.x ∧ lo.y < hi.y ∧ lo.z < hi.z ∧ RowBox lc C r lo hi
  cover : ∀ p, S p ↔ ∃ r ∈ T, ∃ lo hi, RowBox lc C r lo hi ∧ InB lo hi p
  disjoint : ∀ (i j : Nat) (r s : List Nat) (lo hi lo' hi' p : V3 K), T[i]? = some r → T[j]? = some s → i ≠ j → RowBox lc C r lo hi →
    RowBox lc C s lo' hi' → InsideB lo hi p → ¬ InB lo' hi' p
  distinct : C.Nodup
  used : ∀ n, UsesNode T n ↔ n < C.length

/-! ## gaps of increasing lists -/

/-- Two consecutive values. -/
def Gap (b : List K) (l h : K) : Prop := ∃ i, b[i]? = some l ∧ b[i + 1]? = some h

theorem sorted_le {b : List K} (hb : b.Pairwise (· < ·)) {i j : Nat} {u v : K} (hi : b[i]? = some u) (hj : b[j]? = some v)
    (hij : i ≤ j) : u ≤ v := by
  obtain ⟨h1, rfl⟩ := List.getElem?_eq_some_iff.1 hi
  obtain ⟨h2, rfl⟩ := List.getElem?_eq_some_iff.1 hj
  rcases Nat.lt_or_ge i j with h | h
  · exact (List.pairwise_iff_getElem.1 hb i j h1 h2 h).le
  · have : i = j := by omega
    subst this; exact le_refl _

theorem sorted_lt {b : List K} (hb : b.Pairwise (· < ·)) {i j : Nat} {u v : K} (hi : b[i]? = some u) (hj : b[j]? = some v)
    (hij : i < j) : u < v := by
  obtain ⟨h1, rfl⟩ := List.getElem?_eq_some_iff.1 hi
  obtain ⟨h2, rfl⟩ := List.getElem?_eq_some_iff.1 hj
  exact List.pairwise_iff_getElem.1 hb i j h1 h2 hij

theorem Gap.lt {b : List K} (hb : b.Pairwise (· < ·)) {l h : K} (g : Gap b l h) : l < h := by
  obtain ⟨i, h1, h2⟩ := g
  exact sorted_lt hb h1 h2 (by omega)

theorem Gap.side {b : List K} (hb : b.Pairwise (· < ·)) {l h v : K} (g : Gap b l h) (hv : v ∈ b) : h ≤ v ∨ v ≤ l := by
  obtain ⟨i, h1, h2⟩ := g
  obtain ⟨m, hm, rfl⟩ := List.getElem_of_mem hv
  rcases Nat.lt_or_ge i m with h | h
  · exact Or.inl (sorted_le hb h2 (List.getElem?_eq_getElem hm) h)
  · exact Or.inr (sorted_le hb (List.getElem?_eq_getElem hm) h1 h)

theorem Gap.mem {b : List K} {l h : K} (g : Gap b l h) : l ∈ b ∧ h ∈ b := by
  obtain ⟨i, h1, h2⟩ := g
  exact ⟨List.mem_of_getElem? h1, List.mem_of_getElem? h2⟩

theorem Gap.unique {b : List K} (hb : b.Pairwise (· < ·)) {l h l' h' x : K} (g : Gap b l h) (g' : Gap b l' h')
    (hx : l < x ∧ x < h) (hx' : l' ≤ x ∧ x ≤ h') : l' = l ∧ h' = h := by
  obtain ⟨i, h1, h2⟩ := g
  obtain ⟨j, h3, h4⟩ := g'
  have : i = j := by
    rcases Nat.lt_trichotomy i j with c | c | c
    · have := sorted_le hb h2 h3 c
      linarith [hx.2, hx'.1]
    · exact c
    · have := sorted_le hb h4 h1 c
      linarith [hx.1, hx'.2]
  subst this
  rw [h1] at h3; rw [h2] at h4
  exact ⟨(Option.some.inj h3).symm, (Option.some.inj h4).symm⟩

/-- Between two of the values every number is in a gap between them. -/
theorem Gap.cover {b : List K} (hb : b.Pairwise (· < ·)) {lo hi x : K} (h1 : lo ∈ b) (h2 : hi ∈ b) (h : lo < hi)
    (hx : lo ≤ x ∧ x ≤ hi) : ∃ l h, Gap b l h ∧ lo ≤ l ∧ l ≤ x ∧ x ≤ h ∧ h ≤ hi := by
  obtain ⟨i, hi1, e1⟩ := List.getElem_of_mem h1
  obtain ⟨j, hj1, e2⟩ := List.getElem_of_mem h2
  have ei : b[i]? = some lo := by rw [List.getElem?_eq_getElem hi1, e1]
  have ej : b[j]? = some hi := by rw [List.getElem?_eq_getElem hj1, e2]
  have hij : i < j := by
    by_contra c
    have := sorted_le hb ej ei (by omega)
    linarith
  have : ∀ d v, b[i + d + 1]? = some v → lo ≤ x → x ≤ v → ∃ l h, Gap b l h ∧ lo ≤ l ∧ l ≤ x ∧ x ≤ h ∧ h ≤ v := by
    intro d
    induction d with
    | zero => intro v hv hx1 hx2; exact ⟨lo, v, ⟨i, ei, hv⟩, le_refl _, hx1, hx2, le_refl _⟩
    | succ d ih =>
      intro v hv hx1 hx2
      have hlt : i + d + 1 < b.length := by
        have := (List.getElem?_eq_some_iff.1 hv).1
        omega
      have eu : b[i + d + 1]? = some b[i + d + 1] := List.getElem?_eq_getElem hlt
      have huv : b[i + d + 1] ≤ v := sorted_le hb eu hv (by omega)
      rcases le_total x b[i + d + 1] with c | c
      · obtain ⟨l, h, g, a1, a2, a3, a4⟩ := ih _ eu hx1 c
        exact ⟨l, h, g, a1, a2, a3, a4.trans huv⟩
      · exact ⟨_, v, ⟨i + d + 1, eu, hv⟩, sorted_le hb ei eu (by omega), c, hx2, le_refl _⟩
  have hj : b[i + (j - i - 1) + 1]? = some hi := by
    rw [← ej]; congr 1; omega
  exact this _ hi hj hx.1 hx.2

/-! ## the grid -/

/-- What is needed about the grid of three increasing lists: its cells are the boxes of the gaps. -/
structure GapGrid (lc : List (V3 Int)) (bx bY bz : List K) (C : List (List K)) (T : Topo) : Prop where
  box : ∀ r ∈ T, ∃ lo hi, Gap bx lo.x hi.x ∧ Gap bY lo.y hi.y ∧ Gap bz lo.z hi.z ∧ RowBox lc C r lo hi
  all : ∀ lo hi, Gap bx lo.x hi.x → Gap bY lo.y hi.y → Gap bz lo.z hi.z → ∃ r ∈ T, RowBox lc C r lo hi
  distinct : C.Nodup
  nodup : T.Nodup

/-- The master cell has its first node in one corner and its seventh in the opposite one. -/
structure HexMaster (lc : List (V3 Int)) : Prop where
  len : 6 < lc.length
  lo : lc.getD 0 0 = ⟨-2, -2, -2⟩
  hi : lc.getD 6 0 = ⟨2, 2, 2⟩
  corners : ∀ v ∈ lc, (-2 ≤ v.x ∧ v.x ≤ 2) ∧ (-2 ≤ v.y ∧ v.y ≤ 2) ∧ (-2 ≤ v.z ∧ v.z ≤ 2)
  mean : (lc.map fun v => v.x).sum = 0 ∧ (lc.map fun v => v.y).sum = 0 ∧ (lc.map fun v => v.z).sum = 0

theorem hexH8 : HexMaster lcH8 := ⟨by decide, by decide, by decide, by decide, by decide⟩
theorem hexH27 : HexMaster lcH27 := ⟨by decide, by decide, by decide, by decide, by decide⟩

theorem RowBox.ends {lc : List (V3 Int)} (hm : HexMaster lc) {C : List (List K)} {r : List Nat} {lo hi : V3 K}
    (h : RowBox lc C r lo hi) : (∃ n, r[0]? = some n ∧ C[n]? = some [lo.x, lo.y, lo.z]) ∧
      ∃ n, r[6]? = some n ∧ C[n]? = some [hi.x, hi.y, hi.z] := by
  have hl := hm.len
  obtain ⟨n0, a1, P, rfl, a2⟩ := h.2 0 (by omega)
  obtain ⟨n6, b1, Q, rfl, b2⟩ := h.2 6 (by omega)
  refine ⟨⟨n0, a1, ?_⟩, ⟨n6, b1, ?_⟩⟩
  · rw [a2, hm.lo]
    simp only [boxAff, Aff.app, half, V3.add_x, V3.add_y, V3.add_z, V3.smul_x, V3.smul_y, V3.smul_z]
    push_cast
    congr 1
    simp only [List.cons.injEq, and_true]
    refine ⟨?_, ?_, ?_⟩ <;> ring
  · rw [b2, hm.hi]
    simp only [boxAff, Aff.app, half, V3.add_x, V3.add_y, V3.add_z, V3.smul_x, V3.smul_y, V3.smul_z]
    push_cast
    congr 1
    simp only [List.cons.injEq, and_true]
    refine ⟨?_, ?_, ?_⟩ <;> ring

/-- The corners are determined by the nodes. -/
theorem RowBox.unique {lc : List (V3 Int)} (hm : HexMaster lc) {C : List (List K)} {r : List Nat} {lo hi lo' hi' : V3 K}
    (h : RowBox lc C r lo hi) (h' : RowBox lc C r lo' hi') : lo' = lo ∧ hi' = hi := by
  obtain ⟨⟨n, a1, a2⟩, ⟨m, b1, b2⟩⟩ := h.ends hm
  obtain ⟨⟨n', a1', a2'⟩, ⟨m', b1', b2'⟩⟩ := h'.ends hm
  rw [a1] at a1'; rw [b1] at b1'
  cases Option.some.inj a1'; cases Option.some.inj b1'
  rw [a2] at a2'; rw [b2] at b2'
  simp only [Option.some.injEq, List.cons.injEq, and_true] at a2' b2'
  exact ⟨by ext <;> [exact a2'.1.symm; exact a2'.2.1.symm; exact a2'.2.2.symm],
    by ext <;> [exact b2'.1.symm; exact b2'.2.1.symm; exact b2'.2.2.symm]⟩

/-- The nodes are determined by the corners if no two points coincide. -/
theorem RowBox.rows {lc : List (V3 Int)} {C : List (List K)} (hC : C.Nodup) {r s : List Nat} {lo hi : V3 K}
    (h : RowBox lc C r lo hi) (h' : RowBox lc C s lo hi) : r = s := by
  apply List.ext_getElem?
  intro n
  rcases Nat.lt_or_ge n lc.length with c | c
  · obtain ⟨a, a1, P, rfl, a2⟩ := h.2 n c
    obtain ⟨b, b1, Q, rfl, b2⟩ := h'.2 n c
    rw [a1, b1]
    rw [← a2] at b2
    rw [(List.getElem?_inj (List.getElem?_eq_some_iff.1 a2).1 hC).1 b2.symm]
  · rw [List.getElem?_eq_none (by rw [h.1]; exact c), List.getElem?_eq_none (by rw [h'.1]; exact c)]

theorem getD_some {b : List K} {i : Nat} {l : K} (h : b[i]? = some l) : b.getD i 0 = l := by
  rw [List.getD_eq_getElem?_getD, h]; rfl

/-- The grid of three increasing lists. -/
theorem gapGrid (N : Nat) (hN : 2 ≤ N) {path : List Nat} {lc : List (V3 Int)} (htab : PathTab3 N path lc)
    (hm : HexMaster lc) {bx bY bz : List K} (h : 2 ≤ bx.length ∧ 2 ≤ bY.length ∧ 2 ≤ bz.length)
    (hx : bx.Pairwise (· < ·)) (hy : bY.Pairwise (· < ·)) (hz : bz.Pairwise (· < ·)) :
    ∃ C T, gridNamed [N, N, N] path (argsB3 bx bY bz 0 0 0 0) = some (C, T) ∧
      GapGrid lc bx bY bz C (T.map (List.map Int.toNat)) := by
  obtain ⟨C, T, e, h1, h2, h3⟩ := named_bins3 N hN htab bx bY bz 0 0 0 0 h
  refine ⟨C, T, e, ?_⟩
  have eC : C = (gridBins3 bx bY bz N N N 0 0 0 0).1 := by
    have e' : gridCore (argsB3 bx bY bz 0 0 0 0) [N, N, N] true none = some (gridBins3 bx bY bz N N N 0 0 0 0) := rfl
    rw [gridNamed, e'] at e
    simp only [Option.bind_eq_bind, Option.bind_some, Option.map_eq_some_iff] at e
    obtain ⟨t, -, e⟩ := e
    exact (congrArg Prod.fst e).symm
  have hC : C.Nodup := by rw [eC]; exact C21_points_distinct_3d bx bY bz N N N 0 0 0 0 h ⟨hN, hN, hN⟩ hx hy hz
  -- cell (i, j, k)
  have cell : ∀ i j k lo hi, bx[i]? = some lo.x → bx[i + 1]? = some hi.x → bY[j]? = some lo.y → bY[j + 1]? = some hi.y →
      bz[k]? = some lo.z → bz[k + 1]? = some hi.z →
      ∃ r, (T.map (List.map Int.toNat))[(i * (bY.length - 1) + j) * (bz.length - 1) + k]? = some r ∧
        RowBox lc C r lo hi := by
    intro i j k lo hi a1 a2 b1 b2 c1 c2
    have hi' : i < bx.length - 1 := by have := (List.getElem?_eq_some_iff.1 a2).1; omega
    have hj' : j < bY.length - 1 := by have := (List.getElem?_eq_some_iff.1 b2).1; omega
    have hk' : k < bz.length - 1 := by have := (List.getElem?_eq_some_iff.1 c2).1; omega
    have hlt : (i * (bY.length - 1) + j) * (bz.length - 1) + k < T.length := by
      rw [h1]
      show _ < (bx.length - 1) * (bY.length - 1) * (bz.length - 1)
      have q1 : i * (bY.length - 1) + j < (bx.length - 1) * (bY.length - 1) := by
        calc i * (bY.length - 1) + j < i * (bY.length - 1) + (bY.length - 1) := by omega
          _ = (i + 1) * (bY.length - 1) := by ring
          _ ≤ _ := Nat.mul_le_mul_right _ (by omega)
      calc (i * (bY.length - 1) + j) * (bz.length - 1) + k
          < (i * (bY.length - 1) + j) * (bz.length - 1) + (bz.length - 1) := by omega
        _ = (i * (bY.length - 1) + j + 1) * (bz.length - 1) := by ring
        _ ≤ _ := Nat.mul_le_mul_right _ q1
    refine ⟨_, by rw [List.getElem?_map, List.getElem?_eq_getElem hlt]; rfl, ?_⟩
    refine ⟨by rw [List.length_map]; exact h2 _ (List.getElem_mem _), fun n hn => ?_⟩
    obtain ⟨node, e1, P, e2, e3⟩ := h3 i j k n hi' hj' hk' hn
    refine ⟨node, ?_, P, ?_, e3⟩
    · have e1' : nodeAt T ((i * (bY.length - 1) + j) * (bz.length - 1) + k) n = some ((node : Int) + 0) := e1
      rw [nodeAt, List.getElem?_eq_getElem hlt] at e1'
      simp only [Option.bind_eq_bind, Option.bind_some] at e1'
      rw [List.getElem?_map, e1']
      simp
    · rw [e2]
      simp only [binAxis, zero_add, getD_some a1, getD_some a2, getD_some b1, getD_some b2, getD_some c1, getD_some c2]
  have cells : ∀ c, c < T.length → ∃ i j k, c = (i * (bY.length - 1) + j) * (bz.length - 1) + k ∧ i + 1 < bx.length ∧
      j + 1 < bY.length ∧ k + 1 < bz.length := by
    intro c hc
    rw [h1] at hc
    have hc : c < (bx.length - 1) * (bY.length - 1) * (bz.length - 1) := hc
    have hz1 : 0 < bz.length - 1 := by omega
    have hy1 : 0 < bY.length - 1 := by omega
    refine ⟨c / (bz.length - 1) / (bY.length - 1), c / (bz.length - 1) % (bY.length - 1), c % (bz.length - 1), ?_, ?_, ?_, ?_⟩
    · rw [Nat.div_add_mod', Nat.div_add_mod']
    · have q : c / (bz.length - 1) / (bY.length - 1) < bx.length - 1 := by
        rw [Nat.div_lt_iff_lt_mul hy1, Nat.div_lt_iff_lt_mul hz1]; exact hc
      omega
    · have := Nat.mod_lt (c / (bz.length - 1)) hy1; omega
    · have := Nat.mod_lt c hz1; omega
  have atc : ∀ c r, (T.map (List.map Int.toNat))[c]? = some r → ∃ i j k lo hi,
      c = (i * (bY.length - 1) + j) * (bz.length - 1) + k ∧ bx[i]? = some lo.x ∧ bx[i + 1]? = some hi.x ∧
      bY[j]? = some lo.y ∧ bY[j + 1]? = some hi.y ∧ bz[k]? = some lo.z ∧ bz[k + 1]? = some hi.z ∧
      RowBox lc C r lo hi := by
    intro c r hr
    have hc := (List.getElem?_eq_some_iff.1 hr).1
    rw [List.length_map] at hc
    obtain ⟨i, j, k, rfl, hi, hj, hk⟩ := cells c hc
    obtain ⟨s, hs, hb⟩ := cell i j k ⟨bx[i], bY[j], bz[k]⟩ ⟨bx[i + 1], bY[j + 1], bz[k + 1]⟩
      (List.getElem?_eq_getElem _) (List.getElem?_eq_getElem _) (List.getElem?_eq_getElem _) (List.getElem?_eq_getElem _)
      (List.getElem?_eq_getElem _) (List.getElem?_eq_getElem _)
    rw [hs] at hr
    cases Option.some.inj hr
    exact ⟨i, j, k, _, _, rfl, List.getElem?_eq_getElem _, List.getElem?_eq_getElem _, List.getElem?_eq_getElem _,
      List.getElem?_eq_getElem _, List.getElem?_eq_getElem _, List.getElem?_eq_getElem _, hb⟩
  refine ⟨?_, ?_, hC, ?_⟩
  · intro r hr
    obtain ⟨c, hc⟩ := List.mem_iff_getElem?.1 hr
    obtain ⟨i, j, k, lo, hi, -, a1, a2, b1, b2, c1, c2, hb⟩ := atc c r hc
    exact ⟨lo, hi, ⟨i, a1, a2⟩, ⟨j, b1, b2⟩, ⟨k, c1, c2⟩, hb⟩
  · rintro lo hi ⟨i, a1, a2⟩ ⟨j, b1, b2⟩ ⟨k, c1, c2⟩
    obtain ⟨r, hr, hb⟩ := cell i j k lo hi a1 a2 b1 b2 c1 c2
    exact ⟨r, List.mem_of_getElem? hr, hb⟩
  · rw [List.nodup_iff_getElem?_ne_getElem?]
    intro c c' hcc hc' heq
    obtain ⟨r, hr⟩ : ∃ r, (T.map (List.map Int.toNat))[c']? = some r := ⟨_, List.getElem?_eq_getElem hc'⟩
    obtain ⟨i, j, k, lo, hi, e1, a1, a2, b1, b2, c1, c2, hb⟩ := atc c r (heq.trans hr)
    obtain ⟨i', j', k', lo', hi', e1', a1', a2', b1', b2', c1', c2', hb'⟩ := atc c' r hr
    obtain ⟨e2, -⟩ := hb.unique hm hb'
    subst e2
    have inj : ∀ {b : List K} (_ : b.Pairwise (· < ·)) {i j : Nat} {v : K}, b[i]? = some v → b[j]? = some v → i = j := by
      intro b hb i j v p q
      rcases Nat.lt_trichotomy i j with c | c | c
      · exact absurd (sorted_lt hb p q c) (lt_irrefl _)
      · exact c
      · exact absurd (sorted_lt hb q p c) (lt_irrefl _)
    rw [inj hx a1 a1', inj hy b1 b1', inj hz c1 c1', ← e1'] at e1
    omega

/-! ## centres and the mask -/

theorem sumV_affine (l : List (V3 Int)) (g : V3 Int → Int) (o a : K) :
    (l.map fun v => o + (g v : K) / 2 * a).sum = (l.length : K) * o + (((l.map g).sum : Int) : K) / 2 * a := by
  induction l with
  | nil => simp
  | cons v l ih => simp only [List.map_cons, List.sum_cons, ih, List.length_cons]; push_cast; ring

/-- The points of a row. -/
def rowPts (C : List (List K)) (r : List Nat) : List (List K) := r.map fun n => C.getD n []

theorem RowBox.pts {lc : List (V3 Int)} {C : List (List K)} {r : List Nat} {lo hi : V3 K} (h : RowBox lc C r lo hi) :
    r.mapM (fun (n : Nat) => C[n]?) = some (rowPts C r) ∧
    rowPts C r = lc.map fun v => let P := (boxAff lo.x hi.x lo.y hi.y lo.z hi.z).app (half v); [P.x, P.y, P.z] := by
  constructor
  · apply mapM_some
    intro n hn
    obtain ⟨i, hi, e⟩ := List.getElem_of_mem hn
    obtain ⟨node, h1, P, -, h2⟩ := h.2 i (by rw [← h.1]; exact hi)
    rw [List.getElem?_eq_getElem hi, e] at h1
    cases Option.some.inj h1
    rw [List.getD_eq_getElem?_getD, h2]; rfl
  · apply List.ext_getElem?
    intro i
    rcases Nat.lt_or_ge i lc.length with c | c
    · obtain ⟨node, h1, P, rfl, h2⟩ := h.2 i c
      rw [rowPts, List.getElem?_map, h1, List.getElem?_map, List.getElem?_eq_getElem c]
      simp only [Option.map_some, List.getD_eq_getElem?_getD, h2, List.getElem?_eq_getElem c, Option.getD_some]
    · rw [List.getElem?_eq_none (by rw [rowPts, List.length_map, h.1]; exact c),
        List.getElem?_eq_none (by rw [List.length_map]; exact c)]

/-- The centre of a box. -/
theorem RowBox.center {lc : List (V3 Int)} (hm : HexMaster lc) {C : List (List K)} {r : List Nat} {lo hi : V3 K}
    (h : RowBox lc C r lo hi) :
    centerOf (rowPts C r) 3 = [(lo.x + hi.x) / 2, (lo.y + hi.y) / 2, (lo.z + hi.z) / 2] := by
  rw [h.pts.2]
  have hl : ((lc.length : Nat) : K) ≠ 0 := by
    have := hm.len
    exact_mod_cast (by omega : lc.length ≠ 0)
  obtain ⟨s1, s2, s3⟩ := hm.mean
  have e : (List.range 3) = [0, 1, 2] := rfl
  simp only [centerOf, e, List.map_cons, List.map_nil, colMean, List.map_map, List.length_map]
  simp only [Function.comp_def, List.getD_cons_zero, List.getD_cons_succ, boxAff, Aff.app, half, V3.add_x, V3.add_y,
    V3.add_z, V3.smul_x, V3.smul_y, V3.smul_z, mul_zero, add_zero, zero_add]
  rw [sumV_affine lc (fun v => v.x), sumV_affine lc (fun v => v.y), sumV_affine lc (fun v => v.z), s1, s2, s3]
  simp only [Int.cast_zero, zero_div, zero_mul, add_zero]
  rw [mul_div_cancel_left₀ _ hl, mul_div_cancel_left₀ _ hl, mul_div_cancel_left₀ _ hl]

theorem maskRows_map (T : Topo) (f : List Nat → List K) (keep : List K → Bool) :
    maskRows T (T.map f) keep = T.filter fun r => keep (f r) := by
  unfold maskRows
  induction T with
  | nil => rfl
  | cons r T ih =>
    simp only [List.map_cons, List.zip_cons_cons, List.filter_cons]
    by_cases h : keep (f r) = true
    · rw [if_pos h, if_pos h, List.map_cons, ih]
    · rw [if_neg h, if_neg h, ih]

theorem GapGrid.centers {lc : List (V3 Int)} {bx bY bz : List K} {C : List (List K)} {T : Topo}
    (g : GapGrid lc bx bY bz C T) : cellCentersBulk C T 3 = some (T.map fun r => centerOf (rowPts C r) 3) := by
  have : (T.mapM fun (row : List Nat) => row.mapM fun (n : Nat) => C[n]?) = some (T.map (rowPts C)) := by
    apply mapM_some
    intro r hr
    obtain ⟨lo, hi, -, -, -, h⟩ := g.box r hr
    exact h.pts.1
  rw [cellCentersBulk, this, Option.map_some, List.map_map]
  rfl

/-! ## which boxes are kept -/

/-- What is known about the bins: increasing, with the values of the plate and of the ribs. -/
structure ZBins (t : K) (b : List K) (r : Option (K × K × K)) : Prop where
  sorted : b.Pairwise (· < ·)
  bot : -t / 2 ∈ b
  top : t / 2 ∈ b
  rib : ∀ v ∈ ribThrough t r, v ∈ b

/-- The rib touches the plate or runs through it. -/
def Touches (t : K) (r : Option (K × K × K)) : Prop :=
  ∀ w h e, r = some (w, h, e) → e - h / 2 ≤ t / 2 ∧ -t / 2 ≤ e + h / 2

theorem zgap_in {t : K} {b : List K} {w h e l u : K} (hb : ZBins t b (some (w, h, e))) (ht : Touches t (some (w, h, e)))
    (g : Gap b l u) (h1 : e - h / 2 < (l + u) / 2) (h2 : (l + u) / 2 < e + h / 2) :
    (-t / 2 ≤ l ∧ u ≤ t / 2) ∨ (e - h / 2 ≤ l ∧ u ≤ e + h / 2) := by
  have hlu := g.lt hb.sorted
  obtain ⟨t1, t2⟩ := ht w h e rfl
  rcases g.side hb.sorted hb.bot with c | c
  · refine Or.inr ⟨?_, by linarith⟩
    by_cases d : e - h / 2 < -t / 2
    · rcases g.side hb.sorted (hb.rib (e - h / 2) (by simp [ribThrough, d])) with q | q
      · linarith
      · exact q
    · linarith [not_lt.1 d]
  · rcases g.side hb.sorted hb.top with c' | c'
    · exact Or.inl ⟨c, c'⟩
    · refine Or.inr ⟨by linarith, ?_⟩
      by_cases d : t / 2 < e + h / 2
      · rcases g.side hb.sorted (hb.rib (e + h / 2) (by simp [ribThrough, d])) with q | q
        · exact q
        · linarith
      · linarith [not_lt.1 d]

theorem zgap_cover {t : K} {b : List K} {w h e z : K} (hb : ZBins t b (some (w, h, e)))
    (ht : Touches t (some (w, h, e))) (hz : |z - e| ≤ h / 2) :
    |z| ≤ t / 2 ∨ ∃ l u, Gap b l u ∧ l ≤ z ∧ z ≤ u ∧ e - h / 2 < (l + u) / 2 ∧ (l + u) / 2 < e + h / 2 := by
  obtain ⟨t1, t2⟩ := ht w h e rfl
  obtain ⟨z1, z2⟩ := abs_le.1 hz
  rcases lt_or_ge z (-t / 2) with c | c
  · have d : e - h / 2 < -t / 2 := by linarith
    obtain ⟨l, u, g, a1, a2, a3, a4⟩ := Gap.cover hb.sorted (hb.rib (e - h / 2) (by simp [ribThrough, d])) hb.bot d
      ⟨by linarith, c.le⟩
    have := g.lt hb.sorted
    exact Or.inr ⟨l, u, g, a2, a3, by linarith, by linarith⟩
  · rcases lt_or_ge (t / 2) z with c' | c'
    · have d : t / 2 < e + h / 2 := by linarith
      obtain ⟨l, u, g, a1, a2, a3, a4⟩ := Gap.cover hb.sorted hb.top (hb.rib (e + h / 2) (by simp [ribThrough, d])) d
        ⟨c'.le, by linarith⟩
      have := g.lt hb.sorted
      exact Or.inr ⟨l, u, g, a2, a3, by linarith, by linarith⟩
    · exact Or.inl (abs_le.2 ⟨by linarith, c'⟩)

/-- The bins across: increasing, from `-L/2` to `L/2`, with the sides of the rib. -/
structure ABins (L : K) (b : List K) (r : Option (K × K × K)) : Prop where
  sorted : b.Pairwise (· < ·)
  bot : -L / 2 ∈ b
  top : L / 2 ∈ b
  within : ∀ v ∈ b, |v| ≤ L / 2
  rib : ∀ v ∈ ribAcross r, v ∈ b

theorem agap_in {L : K} {b : List K} {w h e l u : K} (hb : ABins L b (some (w, h, e))) (g : Gap b l u)
    (h1 : -w / 2 < (l + u) / 2) (h2 : (l + u) / 2 < w / 2) : -w / 2 ≤ l ∧ u ≤ w / 2 := by
  have hlu := g.lt hb.sorted
  constructor
  · rcases g.side hb.sorted (hb.rib (-w / 2) (by simp [ribAcross])) with c | c
    · linarith
    · exact c
  · rcases g.side hb.sorted (hb.rib (w / 2) (by simp [ribAcross])) with c | c
    · exact c
    · linarith

theorem agap_cover {L : K} {b : List K} {w h e x : K} (hb : ABins L b (some (w, h, e))) (hw : 0 < w) (hx : |x| ≤ w / 2) :
    ∃ l u, Gap b l u ∧ l ≤ x ∧ x ≤ u ∧ -w / 2 < (l + u) / 2 ∧ (l + u) / 2 < w / 2 := by
  obtain ⟨x1, x2⟩ := abs_le.1 hx
  obtain ⟨l, u, g, a1, a2, a3, a4⟩ := Gap.cover hb.sorted (hb.rib (-w / 2) (by simp [ribAcross]))
    (hb.rib (w / 2) (by simp [ribAcross])) (by linarith) ⟨by linarith, x2⟩
  have := g.lt hb.sorted
  exact ⟨l, u, g, a2, a3, by linarith, by linarith⟩

theorem all_cover {L : K} {b : List K} {r : Option (K × K × K)} (hb : ABins L b r) (hL : 0 < L) {x : K}
    (hx : |x| ≤ L / 2) : ∃ l u, Gap b l u ∧ l ≤ x ∧ x ≤ u := by
  obtain ⟨x1, x2⟩ := abs_le.1 hx
  obtain ⟨l, u, g, -, a2, a3, -⟩ := Gap.cover hb.sorted hb.bot hb.top (by linarith) ⟨by linarith, x2⟩
  exact ⟨l, u, g, a2, a3⟩

theorem within_gap {L : K} {b : List K} {r : Option (K × K × K)} (hb : ABins L b r) {l u x : K} (g : Gap b l u)
    (h1 : l ≤ x) (h2 : x ≤ u) : |x| ≤ L / 2 := by
  have a := abs_le.1 (hb.within l g.mem.1)
  have c := abs_le.1 (hb.within u g.mem.2)
  exact abs_le.2 ⟨by linarith, by linarith⟩

/-- The centre of the box is selected. -/
def Kept (t : K) (rx ry : Option (K × K × K)) (lo hi : V3 K) : Prop :=
  plateKeep t rx ry [(lo.x + hi.x) / 2, (lo.y + hi.y) / 2, (lo.z + hi.z) / 2] = true

theorem kept_iff {t : K} {rx ry : Option (K × K × K)} {lo hi : V3 K} : Kept t rx ry lo hi ↔
    (-t / 2 < (lo.z + hi.z) / 2 ∧ (lo.z + hi.z) / 2 < t / 2) ∨
    (∃ w h e, rx = some (w, h, e) ∧ (-w / 2 < (lo.y + hi.y) / 2 ∧ (lo.y + hi.y) / 2 < w / 2) ∧
      e - h / 2 < (lo.z + hi.z) / 2 ∧ (lo.z + hi.z) / 2 < e + h / 2) ∨
    (∃ w h e, ry = some (w, h, e) ∧ (-w / 2 < (lo.x + hi.x) / 2 ∧ (lo.x + hi.x) / 2 < w / 2) ∧
      e - h / 2 < (lo.z + hi.z) / 2 ∧ (lo.z + hi.z) / 2 < e + h / 2) := by
  unfold Kept plateKeep
  rw [Bool.or_eq_true, Bool.or_eq_true, Bool.and_eq_true, or_assoc]
  apply or_congr
  · simp
  · apply or_congr
    · cases rx with
      | none => simp [inRib]
      | some r => obtain ⟨w, h, e⟩ := r; simp [inRib, and_assoc]
    · cases ry with
      | none => simp [inRib]
      | some r => obtain ⟨w, h, e⟩ := r; simp [inRib, and_assoc]

/-- The bins of a plate that meets the requirements. -/
structure PlateBins (lx ly t : K) (rx ry : Option (K × K × K)) (bx bY bz : List K) : Prop where
  x : ABins lx bx ry
  y : ABins ly bY rx
  zx : ZBins t bz rx
  zy : ZBins t bz ry
  posx : 0 < lx
  posy : 0 < ly
  post : 0 < t
  wx : ∀ w h e, rx = some (w, h, e) → 0 < w
  wy : ∀ w h e, ry = some (w, h, e) → 0 < w
  tx : Touches t rx
  ty : Touches t ry

theorem kept_in {lx ly t : K} {rx ry : Option (K × K × K)} {bx bY bz : List K} (hb : PlateBins lx ly t rx ry bx bY bz)
    {lo hi p : V3 K} (gx : Gap bx lo.x hi.x) (gy : Gap bY lo.y hi.y) (gz : Gap bz lo.z hi.z) (hk : Kept t rx ry lo hi)
    (hp : InB lo hi p) : RibbedPlate lx ly t rx ry p := by
  obtain ⟨⟨x1, x2⟩, ⟨y1, y2⟩, ⟨z1, z2⟩⟩ := hp
  have px := within_gap hb.x gx x1 x2
  have py := within_gap hb.y gy y1 y2
  have hz := gz.lt hb.zx.sorted
  rcases kept_iff.1 hk with ⟨h1, h2⟩ | ⟨w, h, e, hr, ⟨h1, h2⟩, h3, h4⟩ | ⟨w, h, e, hr, ⟨h1, h2⟩, h3, h4⟩
  · refine Or.inl ⟨px, py, abs_le.2 ⟨?_, ?_⟩⟩
    · rcases gz.side hb.zx.sorted hb.zx.bot with c | c <;> linarith
    · rcases gz.side hb.zx.sorted hb.zx.top with c | c <;> linarith
  · have hbY := hb.y; have hbz := hb.zx; have htx := hb.tx
    rw [hr] at hbY hbz htx
    obtain ⟨a1, a2⟩ := agap_in hbY gy h1 h2
    rcases zgap_in hbz htx gz h3 h4 with ⟨c1, c2⟩ | ⟨c1, c2⟩
    · exact Or.inl ⟨px, py, abs_le.2 ⟨by linarith, by linarith⟩⟩
    · exact Or.inr (Or.inl ⟨w, h, e, hr, px, abs_le.2 ⟨by linarith, by linarith⟩, abs_le.2 ⟨by linarith, by linarith⟩⟩)
  · have hbx := hb.x; have hbz := hb.zy; have hty := hb.ty
    rw [hr] at hbx hbz hty
    obtain ⟨a1, a2⟩ := agap_in hbx gx h1 h2
    rcases zgap_in hbz hty gz h3 h4 with ⟨c1, c2⟩ | ⟨c1, c2⟩
    · exact Or.inl ⟨px, py, abs_le.2 ⟨by linarith, by linarith⟩⟩
    · exact Or.inr (Or.inr ⟨w, h, e, hr, abs_le.2 ⟨by linarith, by linarith⟩, py, abs_le.2 ⟨by linarith, by linarith⟩⟩)

theorem kept_cover {lx ly t : K} {rx ry : Option (K × K × K)} {bx bY bz : List K}
    (hb : PlateBins lx ly t rx ry bx bY bz) {p : V3 K} (hp : RibbedPlate lx ly t rx ry p) :
    ∃ lo hi, Gap bx lo.x hi.x ∧ Gap bY lo.y hi.y ∧ Gap bz lo.z hi.z ∧ Kept t rx ry lo hi ∧ InB lo hi p := by
  have plate : |p.x| ≤ lx / 2 → |p.y| ≤ ly / 2 → |p.z| ≤ t / 2 →
      ∃ lo hi, Gap bx lo.x hi.x ∧ Gap bY lo.y hi.y ∧ Gap bz lo.z hi.z ∧ Kept t rx ry lo hi ∧ InB lo hi p := by
    intro hx hy hz
    obtain ⟨xl, xu, gx, x1, x2⟩ := all_cover hb.x hb.posx hx
    obtain ⟨yl, yu, gy, y1, y2⟩ := all_cover hb.y hb.posy hy
    obtain ⟨z1, z2⟩ := abs_le.1 hz
    have := hb.post
    obtain ⟨l, u, g, a1, a2, a3, a4⟩ := Gap.cover hb.zx.sorted hb.zx.bot hb.zx.top (by linarith) ⟨by linarith, z2⟩
    have hlu := g.lt hb.zx.sorted
    exact ⟨⟨xl, yl, l⟩, ⟨xu, yu, u⟩, gx, gy, g, kept_iff.2 (Or.inl ⟨by dsimp only; linarith, by dsimp only; linarith⟩),
      ⟨x1, x2⟩, ⟨y1, y2⟩, a2, a3⟩
  rcases hp with ⟨hx, hy, hz⟩ | ⟨w, h, e, hr, hx, hy, hz⟩ | ⟨w, h, e, hr, hx, hy, hz⟩
  · exact plate hx hy hz
  · have hbY := hb.y; have hbz := hb.zx; have htx := hb.tx
    rw [hr] at hbY hbz htx
    have hw := hb.wx w h e hr
    obtain ⟨yl, yu, gy, y1, y2, y3, y4⟩ := agap_cover hbY hw hy
    rcases zgap_cover hbz htx hz with c | ⟨l, u, g, a1, a2, a3, a4⟩
    · exact plate hx (within_gap hb.y gy y1 y2) c
    · obtain ⟨xl, xu, gx, x1, x2⟩ := all_cover hb.x hb.posx hx
      exact ⟨⟨xl, yl, l⟩, ⟨xu, yu, u⟩, gx, gy, g, kept_iff.2 (Or.inr (Or.inl ⟨w, h, e, hr, ⟨y3, y4⟩, a3, a4⟩)),
        ⟨x1, x2⟩, ⟨y1, y2⟩, a1, a2⟩
  · have hbx := hb.x; have hbz := hb.zy; have hty := hb.ty
    rw [hr] at hbx hbz hty
    have hw := hb.wy w h e hr
    obtain ⟨xl, xu, gx, x1, x2, x3, x4⟩ := agap_cover hbx hw hx
    rcases zgap_cover hbz hty hz with c | ⟨l, u, g, a1, a2, a3, a4⟩
    · exact plate (within_gap hb.x gx x1 x2) hy c
    · obtain ⟨yl, yu, gy, y1, y2⟩ := all_cover hb.y hb.posy hy
      exact ⟨⟨xl, yl, l⟩, ⟨xu, yu, u⟩, gx, gy, g, kept_iff.2 (Or.inr (Or.inr ⟨w, h, e, hr, ⟨x3, x4⟩, a3, a4⟩)),
        ⟨x1, x2⟩, ⟨y1, y2⟩, a1, a2⟩

/-! ## the kept cells -/

/-- The kept cells, before unused points are removed. -/
structure PreMesh (lc : List (V3 Int)) (C : List (List K)) (T : Topo) (S : V3 K → Prop) : Prop where
  box : ∀ r ∈ T, ∃ lo hi, lo.x < hi.x ∧ lo.y < hi.y ∧ lo.z < hi.z ∧ RowBox lc C r lo hi
  cover : ∀ p, S p ↔ ∃ r ∈ T, ∃ lo hi, RowBox lc C r lo hi ∧ InB lo hi p
  disjoint : ∀ (i j : Nat) (r s : List Nat) (lo hi lo' hi' p : V3 K), T[i]? = some r → T[j]? = some s → i ≠ j →
    RowBox lc C r lo hi → RowBox lc C s lo' hi' → InsideB lo hi p → ¬ InB lo' hi' p
  distinct : C.Nodup

/-- Every cell is the box of three gaps. -/
def OnGaps (lc : List (V3 Int)) (bx bY bz : List K) (C : List (List K)) (T : Topo) : Prop :=
  ∀ r ∈ T, ∀ lo hi, RowBox lc C r lo hi → Gap bx lo.x hi.x ∧ Gap bY lo.y hi.y ∧ Gap bz lo.z hi.z

theorem preMesh {lc : List (V3 Int)} (hm : HexMaster lc) {lx ly t : K} {rx ry : Option (K × K × K)} {bx bY bz : List K}
    (hb : PlateBins lx ly t rx ry bx bY bz) {C : List (List K)} {T : Topo} (g : GapGrid lc bx bY bz C T) :
    PreMesh lc C (T.filter fun r => plateKeep t rx ry (centerOf (rowPts C r) 3)) (RibbedPlate lx ly t rx ry) ∧
      OnGaps lc bx bY bz C (T.filter fun r => plateKeep t rx ry (centerOf (rowPts C r) 3)) := by
  have on : OnGaps lc bx bY bz C T := by
    intro r hr lo hi h
    obtain ⟨lo', hi', a, b, c, h'⟩ := g.box r hr
    obtain ⟨rfl, rfl⟩ := h.unique hm h'
    exact ⟨a, b, c⟩
  refine ⟨⟨?_, ?_, ?_, g.distinct⟩, fun r hr => on r (List.mem_filter.1 hr).1⟩
  · intro r hr
    obtain ⟨lo, hi, a, b, c, h⟩ := g.box r (List.mem_filter.1 hr).1
    exact ⟨lo, hi, a.lt hb.x.sorted, b.lt hb.y.sorted, c.lt hb.zx.sorted, h⟩
  · intro p
    constructor
    · intro hp
      obtain ⟨lo, hi, a, b, c, k, hin⟩ := kept_cover hb hp
      obtain ⟨r, hr, h⟩ := g.all lo hi a b c
      refine ⟨r, List.mem_filter.2 ⟨hr, ?_⟩, lo, hi, h, hin⟩
      rw [h.center hm]; exact k
    · rintro ⟨r, hr, lo, hi, h, hin⟩
      obtain ⟨hr, hk⟩ := List.mem_filter.1 hr
      obtain ⟨a, b, c⟩ := on r hr lo hi h
      rw [h.center hm] at hk
      exact kept_in hb a b c hk hin
  · intro i j r s lo hi lo' hi' p hi1 hj1 hij h h' hp hp'
    have hr := (List.mem_filter.1 (List.mem_of_getElem? hi1)).1
    have hs := (List.mem_filter.1 (List.mem_of_getElem? hj1)).1
    obtain ⟨a, b, c⟩ := on r hr lo hi h
    obtain ⟨a', b', c'⟩ := on s hs lo' hi' h'
    obtain ⟨e1, e2⟩ := a.unique hb.x.sorted a' hp.1 hp'.1
    obtain ⟨e3, e4⟩ := b.unique hb.y.sorted b' hp.2.1 hp'.2.1
    obtain ⟨e5, e6⟩ := c.unique hb.zx.sorted c' hp.2.2 hp'.2.2
    have el : lo' = lo := by ext <;> assumption
    have eh : hi' = hi := by ext <;> assumption
    subst el; subst eh
    have := h.rows g.distinct h'
    subst this
    have nd := g.nodup.filter fun r => plateKeep t rx ry (centerOf (rowPts C r) 3)
    exact hij ((List.getElem?_inj (List.getElem?_eq_some_iff.1 hi1).1 nd).1 (hi1.trans hj1.symm))

/-! ## removing unused points -/

/-- The rows of two tables have the same points. -/
def SamePts {α : Type} (C : List α) (T : Topo) (c : List α) (t : Topo) : Prop :=
  t.length = T.length ∧ ∀ (i : Nat) (r s : List Nat), T[i]? = some r → t[i]? = some s →
    s.length = r.length ∧ ∀ (j n k : Nat), r[j]? = some n → s[j]? = some k → c[k]? = C[n]?

theorem detach_same {α : Type} {C : List α} {T : Topo} (h : ∀ n, UsesNode T n → n < C.length) (hC : C.Nodup) :
    ∃ c t, detach C T none = some (c, t) ∧ SamePts C T c t ∧ c.Nodup ∧ ∀ k, UsesNode t k ↔ k < c.length := by
  obtain ⟨c, t, ids, h1, h2, h3, h4, h5, h6, h7, h8⟩ := C04_detach C T h
  have hlen : t.length = T.length := by simpa using congrArg List.length h6
  refine ⟨c, t, h1, ⟨hlen, ?_⟩, ?_, h7⟩
  · intro i r s hr hs
    refine ⟨?_, ?_⟩
    · have e1 : (t.map List.length)[i]? = some s.length := by rw [List.getElem?_map, hs]; rfl
      have e2 : (T.map List.length)[i]? = some r.length := by rw [List.getElem?_map, hr]; rfl
      rw [h6, e2] at e1
      exact (Option.some.inj e1).symm
    · intro j n k hn hk
      obtain ⟨k', e1, e2⟩ := h8 i j n (by rw [nodeAt, hr]; exact hn)
      rw [nodeAt, hs] at e1
      have e1 : s[j]? = some k' := e1
      rw [hk] at e1
      cases Option.some.inj e1
      exact e2
  · rw [List.nodup_iff_getElem?_ne_getElem?]
    intro i j hij hj heq
    have hi' : i < ids.length := by omega
    have hj' : j < ids.length := by omega
    rw [h5 i ids[i] (List.getElem?_eq_getElem hi'), h5 j ids[j] (List.getElem?_eq_getElem hj')] at heq
    have hlt : ids[i] < C.length := h _ ((h3 _).1 (List.getElem_mem hi'))
    have := (List.getElem?_inj hlt hC).1 heq
    have := List.pairwise_iff_getElem.1 h2 i j hi' hj' hij
    omega

theorem SamePts.rowAff {C : List (List K)} {T : Topo} {c : List (List K)} {t : Topo} (h : SamePts C T c t) {i : Nat}
    {r s : List Nat} (hr : T[i]? = some r) (hs : t[i]? = some s) {lc : List (V3 Int)} {A : Aff K} :
    RowAff lc c s A ↔ RowAff lc C r A := by
  obtain ⟨h1, h2⟩ := h.2 i r s hr hs
  unfold RowAff
  rw [h1]
  apply and_congr_right
  intro hl
  apply forall_congr'; intro n
  apply imp_congr_right; intro hn
  have a1 : r[n]? = some r[n] := List.getElem?_eq_getElem (by omega)
  have a2 : s[n]? = some s[n] := List.getElem?_eq_getElem (by omega)
  have e := h2 n _ _ a1 a2
  rw [a1, a2]
  constructor
  · rintro ⟨k, hk, P, hP, hc⟩
    cases Option.some.inj hk
    exact ⟨_, rfl, P, hP, by rw [← e]; exact hc⟩
  · rintro ⟨k, hk, P, hP, hc⟩
    cases Option.some.inj hk
    exact ⟨_, rfl, P, hP, by rw [e]; exact hc⟩

theorem SamePts.row {C : List (List K)} {T : Topo} {c : List (List K)} {t : Topo} (h : SamePts C T c t) {i : Nat}
    {r s : List Nat} (hr : T[i]? = some r) (hs : t[i]? = some s) {lc : List (V3 Int)} {lo hi : V3 K} :
    RowBox lc c s lo hi ↔ RowBox lc C r lo hi := h.rowAff hr hs

theorem SamePts.get {α : Type} {C : List α} {T : Topo} {c : List α} {t : Topo} (h : SamePts C T c t) {r : List Nat}
    (hr : r ∈ t) : ∃ (i : Nat) (s : List Nat), t[i]? = some r ∧ T[i]? = some s ∧ s ∈ T := by
  obtain ⟨i, hi⟩ := List.mem_iff_getElem?.1 hr
  have := (List.getElem?_eq_some_iff.1 hi).1
  rw [h.1] at this
  exact ⟨i, T[i], hi, List.getElem?_eq_getElem this, List.getElem_mem _⟩

theorem SamePts.get' {α : Type} {C : List α} {T : Topo} {c : List α} {t : Topo} (h : SamePts C T c t) {r : List Nat}
    (hr : r ∈ T) : ∃ (i : Nat) (s : List Nat), T[i]? = some r ∧ t[i]? = some s ∧ s ∈ t := by
  obtain ⟨i, hi⟩ := List.mem_iff_getElem?.1 hr
  have := (List.getElem?_eq_some_iff.1 hi).1
  rw [← h.1] at this
  exact ⟨i, t[i], hi, List.getElem?_eq_getElem this, List.getElem_mem _⟩

theorem PreMesh.uses {lc : List (V3 Int)} {C : List (List K)} {T : Topo} {S : V3 K → Prop} (h : PreMesh lc C T S) :
    ∀ n, UsesNode T n → n < C.length := by
  rintro n ⟨r, hr, hn⟩
  obtain ⟨lo, hi, -, -, -, h1, h2⟩ := h.box r hr
  obtain ⟨i, hi', e⟩ := List.getElem_of_mem hn
  obtain ⟨node, e1, P, -, e2⟩ := h2 i (by rw [← h1]; exact hi')
  rw [List.getElem?_eq_getElem hi', e] at e1
  cases Option.some.inj e1
  exact (List.getElem?_eq_some_iff.1 e2).1

theorem PreMesh.detached {lc : List (V3 Int)} {C : List (List K)} {T : Topo} {S : V3 K → Prop} (h : PreMesh lc C T S)
    {bx bY bz : List K} (hg : OnGaps lc bx bY bz C T) :
    ∃ c t, detach C T none = some (c, t) ∧ BoxMesh lc c t S ∧ OnGaps lc bx bY bz c t := by
  obtain ⟨c, t, h1, h2, h3, h4⟩ := detach_same h.uses h.distinct
  refine ⟨c, t, h1, ⟨?_, ?_, ?_, h3, h4⟩, ?_⟩
  · intro r hr
    obtain ⟨i, s, e1, e2, hs⟩ := h2.get hr
    obtain ⟨lo, hi, a, b, d, hb⟩ := h.box s hs
    exact ⟨lo, hi, a, b, d, (h2.row e2 e1).2 hb⟩
  · intro p
    rw [h.cover]
    constructor
    · rintro ⟨r, hr, lo, hi, hb, hp⟩
      obtain ⟨i, s, e1, e2, hs⟩ := h2.get' hr
      exact ⟨s, hs, lo, hi, (h2.row e1 e2).2 hb, hp⟩
    · rintro ⟨r, hr, lo, hi, hb, hp⟩
      obtain ⟨i, s, e1, e2, hs⟩ := h2.get hr
      exact ⟨s, hs, lo, hi, (h2.row e2 e1).1 hb, hp⟩
  · intro i j r s lo hi lo' hi' p e1 e2 hij hb hb' hp
    have l1 : i < T.length := by rw [← h2.1]; exact (List.getElem?_eq_some_iff.1 e1).1
    have l2 : j < T.length := by rw [← h2.1]; exact (List.getElem?_eq_some_iff.1 e2).1
    have f1 : T[i]? = some T[i] := List.getElem?_eq_getElem l1
    have f2 : T[j]? = some T[j] := List.getElem?_eq_getElem l2
    exact h.disjoint i j _ _ lo hi lo' hi' p f1 f2 hij ((h2.row f1 e1).1 hb) ((h2.row f2 e2).1 hb') hp
  · intro r hr lo hi hb
    obtain ⟨i, s, e1, e2, hs⟩ := h2.get hr
    exact hg s hs lo hi ((h2.row e2 e1).1 hb)

/-! ## the bins -/

variable [FloorRing K]

/-- The maximum length is not given, or an integer (and ignored), or a positive float. -/
def LMaxOK (l : LMax K) : Prop := ∀ x, l = .float x → 0 < x

/-- The bins in one direction. -/
theorem plateBins_ok {l : LMax K} (hl : LMaxOK l) {bins : List K} (hne : bins ≠ []) :
    ∃ r, plateBins bins l = some r ∧ (∀ b ∈ bins, b ∈ r) ∧ r.Pairwise (· < ·) ∧
      (∀ y ∈ r, ∃ lo ∈ bins, ∃ hi ∈ bins, lo ≤ y ∧ y ≤ hi) ∧ ∀ x, l = .float x → ∀ a b, Gap r a b → b - a ≤ x := by
  have simple : (∀ b ∈ bins, b ∈ npUnique bins) ∧ (npUnique bins).Pairwise (· < ·) ∧
      (∀ y ∈ npUnique bins, ∃ lo ∈ bins, ∃ hi ∈ bins, lo ≤ y ∧ y ≤ hi) :=
    ⟨fun b hb => mem_npUnique.2 hb, sorted_npUnique bins,
      fun y hy => ⟨y, mem_npUnique.1 hy, y, mem_npUnique.1 hy, le_refl _, le_refl _⟩⟩
  cases l with
  | none => exact ⟨_, rfl, simple.1, simple.2.1, simple.2.2, fun x h => by cases h⟩
  | int n => exact ⟨_, rfl, simple.1, simple.2.1, simple.2.2, fun x h => by cases h⟩
  | float x =>
    obtain ⟨r, h1, h2, h3, h4, h5⟩ := C50_plate (hl x rfl) hne
    refine ⟨r, h1, h2, h3, h5, ?_⟩
    intro y hy a b ⟨i, g1, g2⟩
    cases hy
    obtain ⟨i1, rfl⟩ := List.getElem?_eq_some_iff.1 g1
    obtain ⟨i2, rfl⟩ := List.getElem?_eq_some_iff.1 g2
    exact List.isChain_iff_getElem.1 h4 i i2

/-- The requirements: a plate of positive size, ribs of positive width that are not wider than the plate and touch it. -/
structure PlateOK (lx ly t : K) (rx ry : Option (K × K × K)) : Prop where
  posx : 0 < lx
  posy : 0 < ly
  post : 0 < t
  wx : ∀ w h e, rx = some (w, h, e) → 0 < w ∧ w ≤ ly
  wy : ∀ w h e, ry = some (w, h, e) → 0 < w ∧ w ≤ lx
  tx : Touches t rx
  ty : Touches t ry

theorem aBins_of {L : K} {r : Option (K × K × K)} {b : List K} (hL : 0 < L)
    (hw : ∀ w h e, r = some (w, h, e) → 0 < w ∧ w ≤ L) (h1 : ∀ v ∈ [-L / 2, 0, L / 2] ++ ribAcross r, v ∈ b)
    (h2 : b.Pairwise (· < ·))
    (h3 : ∀ y ∈ b, ∃ lo ∈ [-L / 2, 0, L / 2] ++ ribAcross r, ∃ hi ∈ [-L / 2, 0, L / 2] ++ ribAcross r, lo ≤ y ∧ y ≤ hi) :
    ABins L b r := by
  have key : ∀ v ∈ [-L / 2, 0, L / 2] ++ ribAcross r, -(L / 2) ≤ v ∧ v ≤ L / 2 := by
    intro v hv
    rcases List.mem_append.1 hv with hv | hv
    · simp only [List.mem_cons, List.not_mem_nil, or_false] at hv
      rcases hv with rfl | rfl | rfl <;> constructor <;> linarith
    · cases r with
      | none => simp [ribAcross] at hv
      | some r =>
        obtain ⟨w, h, e⟩ := r
        obtain ⟨q1, q2⟩ := hw w h e rfl
        simp only [ribAcross, List.mem_cons, List.not_mem_nil, or_false] at hv
        rcases hv with rfl | rfl <;> constructor <;> linarith
  refine ⟨h2, h1 _ (by simp), h1 _ (by simp), ?_, fun v hv => h1 v (List.mem_append_right _ hv)⟩
  intro v hv
  obtain ⟨lo, hlo, hi, hhi, q1, q2⟩ := h3 v hv
  exact abs_le.2 ⟨(key lo hlo).1.trans q1, q2.trans (key hi hhi).2⟩

theorem two_le_of_mem {b : List K} {u v : K} (hu : u ∈ b) (hv : v ∈ b) (h : u < v) : 2 ≤ b.length := by
  match b, hu, hv with
  | [x], hu, hv =>
    rw [List.mem_singleton] at hu hv
    subst hu; subst hv; exact absurd h (lt_irrefl _)
  | _ :: _ :: _, _, _ => simp

/-- The bins of the model. -/
theorem plate_bins {lx ly t : K} {rx ry : Option (K × K × K)} (h : PlateOK lx ly t rx ry) {l : LMax K} (hl : LMaxOK l) :
    ∃ bx bY bz, plateBins (plateRaw lx ly t rx ry).1 l = some bx ∧ plateBins (plateRaw lx ly t rx ry).2.1 l = some bY ∧
      plateBins (plateRaw lx ly t rx ry).2.2 l = some bz ∧ PlateBins lx ly t rx ry bx bY bz ∧
      (2 ≤ bx.length ∧ 2 ≤ bY.length ∧ 2 ≤ bz.length) ∧
      ∀ x, l = .float x → ∀ a b, Gap bx a b ∨ Gap bY a b ∨ Gap bz a b → b - a ≤ x := by
  obtain ⟨bx, x1, x2, x3, x4, x5⟩ := plateBins_ok hl (bins := (plateRaw lx ly t rx ry).1) (by simp [plateRaw])
  obtain ⟨bY, y1, y2, y3, y4, y5⟩ := plateBins_ok hl (bins := (plateRaw lx ly t rx ry).2.1) (by simp [plateRaw])
  obtain ⟨bz, z1, z2, z3, z4, z5⟩ := plateBins_ok hl (bins := (plateRaw lx ly t rx ry).2.2) (by simp [plateRaw])
  have hx := aBins_of h.posx h.wy x2 x3 x4
  have hy := aBins_of h.posy h.wx y2 y3 y4
  have b1 : -t / 2 ∈ bz := z2 _ (by simp [plateRaw])
  have b2 : t / 2 ∈ bz := z2 _ (by simp [plateRaw])
  have p1 := h.posx; have p2 := h.posy; have p3 := h.post
  refine ⟨bx, bY, bz, x1, y1, z1, ⟨hx, hy, ⟨z3, b1, b2, fun v hv => z2 v ?_⟩, ⟨z3, b1, b2, fun v hv => z2 v ?_⟩, p1, p2, p3,
    fun w k e q => (h.wx w k e q).1, fun w k e q => (h.wy w k e q).1, h.tx, h.ty⟩,
    ⟨two_le_of_mem hx.bot hx.top (by linarith), two_le_of_mem hy.bot hy.top (by linarith),
      two_le_of_mem b1 b2 (by linarith)⟩, ?_⟩
  · simp only [plateRaw, List.mem_append]; exact Or.inl (Or.inr hv)
  · simp only [plateRaw, List.mem_append]; exact Or.inr hv
  · intro x hx a b g
    rcases g with g | g | g
    · exact x5 x hx a b g
    · exact y5 x hx a b g
    · exact z5 x hx a b g

/-- The master cell of the given order. -/
def lcHex (order : Nat) : List (V3 Int) := if order = 1 then lcH8 else lcH27

theorem hexMaster_of (order : Nat) : HexMaster (lcHex order) := by
  unfold lcHex; split
  · exact hexH8
  · exact hexH27

theorem plate_grid {order : Nat} (ho : order = 1 ∨ order = 2) {bx bY bz : List K}
    (h : 2 ≤ bx.length ∧ 2 ≤ bY.length ∧ 2 ≤ bz.length) (hx : bx.Pairwise (· < ·)) (hy : bY.Pairwise (· < ·))
    (hz : bz.Pairwise (· < ·)) :
    ∃ C T, plateGrid [bx, bY, bz] order = some (C, T) ∧ GapGrid (lcHex order) bx bY bz C T := by
  rcases ho with rfl | rfl
  · obtain ⟨C, T, e, g⟩ := gapGrid 2 (by omega) tabH8 hexH8 h hx hy hz
    refine ⟨C, T.map (List.map Int.toNat), ?_, g⟩
    have e' : grid ({ bins := some [bx, bY, bz] } : GridArgs K) (.name "H8") none = some (C, T) := e
    simp [plateGrid, e']
  · obtain ⟨C, T, e, g⟩ := gapGrid 3 (by omega) tabH27 hexH27 h hx hy hz
    refine ⟨C, T.map (List.map Int.toNat), ?_, g⟩
    have e' : grid ({ bins := some [bx, bY, bz] } : GridArgs K) (.name "H27") none = some (C, T) := e
    simp [plateGrid, e']

/-- The grid of the plate and the cells kept. -/
theorem plate_kept {lx ly t : K} {rx ry : Option (K × K × K)} (h : PlateOK lx ly t rx ry) {l : LMax K} (hl : LMaxOK l)
    {order : Nat} (ho : order = 1 ∨ order = 2) :
    ∃ bx bY bz C T, plateBins (plateRaw lx ly t rx ry).1 l = some bx ∧ plateBins (plateRaw lx ly t rx ry).2.1 l = some bY ∧
      plateBins (plateRaw lx ly t rx ry).2.2 l = some bz ∧ plateGrid [bx, bY, bz] order = some (C, T) ∧
      (∃ centers, cellCentersBulk C T 3 = some centers ∧
        PreMesh (lcHex order) C (maskRows T centers (plateKeep t rx ry)) (RibbedPlate lx ly t rx ry) ∧
        OnGaps (lcHex order) bx bY bz C (maskRows T centers (plateKeep t rx ry))) ∧
      ∀ x, l = .float x → ∀ a b, Gap bx a b ∨ Gap bY a b ∨ Gap bz a b → b - a ≤ x := by
  obtain ⟨bx, bY, bz, e1, e2, e3, hb, hlen, hmax⟩ := plate_bins h hl
  obtain ⟨C, T, e4, g⟩ := plate_grid ho hlen hb.x.sorted hb.y.sorted hb.zx.sorted
  refine ⟨bx, bY, bz, C, T, e1, e2, e3, e4, ⟨_, g.centers, ?_⟩, hmax⟩
  rw [maskRows_map]
  exact preMesh (hexMaster_of order) hb g

theorem IsRibs.get {a : RibArgs K} {r : Option (K × K × K)} (h : IsRibs a r) : a.get = r := by
  have key : IsRibs a a.get := by
    intro w h e
    unfold RibArgs.get
    cases hw : a.w with
    | none => simp
    | some w' =>
      cases hh : a.h with
      | none => simp
      | some h' => cases he : a.e <;> simp [eq_comm]
  rcases hr : r with _ | ⟨w, d, e⟩
  · rcases hg : a.get with _ | ⟨w, d, e⟩
    · rfl
    · have := (h w d e).2 ((key w d e).1 hg)
      rw [hr] at this
      cases this
  · exact (key w d e).2 ((h w d e).1 hr)

/-- Ribs without an eccentricity are centred; without a height there are none. -/
example : IsRibs (⟨some 2, some 3, none⟩ : RibArgs ℚ) (some (2, 3, 0)) ∧ IsRibs (⟨some 2, none, some 1⟩ : RibArgs ℚ) none := by
  constructor <;> intro w h e <;> simp [eq_comm, and_assoc]

/-- **C62** the cells of the ribbed plate are boxes that cover exactly the plate and the ribs, do not overlap, share their
points, and (if a positive float is given) have no edge longer than the maximum. The ribs must touch the plate and not be
wider than it: see the false variants. -/
theorem C62_partial {lx ly t : K} {ax ay : RibArgs K} {rx ry : Option (K × K × K)} (hx : IsRibs ax rx) (hy : IsRibs ay ry)
    (h : PlateOK lx ly t rx ry) {l : LMax K} (hl : LMaxOK l) {order : Nat} (ho : order = 1 ∨ order = 2) :
    ∃ C T, ribbedPlate lx ly t ax ay l order false = some (C, T) ∧
      BoxMesh (lcHex order) C T (RibbedPlate lx ly t rx ry) ∧
      ∀ x, l = .float x → ∀ r ∈ T, ∀ lo hi, RowBox (lcHex order) C r lo hi →
        hi.x - lo.x ≤ x ∧ hi.y - lo.y ≤ x ∧ hi.z - lo.z ≤ x := by
  obtain rfl := hx.get
  obtain rfl := hy.get
  obtain ⟨bx, bY, bz, C, T, e1, e2, e3, e4, ⟨centers, e5, pm, og⟩, hmax⟩ := plate_kept h hl ho
  obtain ⟨c, tt, e6, bm, og'⟩ := pm.detached og
  refine ⟨c, tt, ?_, bm, ?_⟩
  · simp only [ribbedPlate, e1, e2, e3, e4, e5, plateTets, Option.bind_eq_bind, Option.bind_some, Bool.false_eq_true,
      if_false, e6]
  · intro x hx r hr lo hi hb
    obtain ⟨g1, g2, g3⟩ := og' r hr lo hi hb
    exact ⟨hmax x hx _ _ (Or.inl g1), hmax x hx _ _ (Or.inr (Or.inl g2)), hmax x hx _ _ (Or.inr (Or.inr g3))⟩

end

/-! ## false variants and examples -/

/-- The points have `z` at most `1/2`: the rib above the plate is missing. -/
theorem floating_rib : ((ribbedPlate (2 : ℚ) 2 1 { w := some 1, h := some 1, e := some 3 } {} .none 1 false).map
    fun g => g.1.all fun r => decide (r.getD 2 0 ≤ 1 / 2)) = some true := by decide +kernel

/-- **C62** is false for ribs that do not touch the plate: a rib from `z = 5/2` to `7/2` above a plate of thickness 1 is
left out altogether. -/
theorem C62_floating_false : ¬ ∀ (lx ly t : ℚ) (ax ay : RibArgs ℚ), 0 < lx → 0 < ly → 0 < t →
    (∀ w h e, ax.get = some (w, h, e) → 0 < w ∧ w ≤ ly ∧ 0 < h) → (∀ w h e, ay.get = some (w, h, e) → 0 < w ∧ w ≤ lx ∧ 0 < h) →
    ∃ C T, ribbedPlate lx ly t ax ay .none 1 false = some (C, T) ∧
      BoxMesh lcH8 C T (RibbedPlate lx ly t ax.get ay.get) := by
  intro h
  obtain ⟨C, T, e, bm⟩ := h 2 2 1 { w := some 1, h := some 1, e := some 3 } {} (by norm_num) (by norm_num) (by norm_num)
    (by rintro w h e q; simp only [RibArgs.get, Option.getD_some, Option.some.injEq, Prod.mk.injEq] at q
        obtain ⟨rfl, rfl, rfl⟩ := q; norm_num)
    (by rintro w h e q; simp [RibArgs.get] at q)
  have hz := floating_rib
  rw [e] at hz
  simp only [Option.map_some, Option.some.injEq, List.all_eq_true, decide_eq_true_eq] at hz
  obtain ⟨r, hr, lo, hi, hb, hp⟩ := (bm.cover ⟨0, 0, 3⟩).1 (Or.inr (Or.inl ⟨1, 1, 3, rfl, by norm_num, by norm_num, by norm_num⟩))
  obtain ⟨-, n, -, e2⟩ := hb.ends hexH8
  have := hz _ (List.mem_of_getElem? e2)
  have h3 : (3 : ℚ) ≤ hi.z := hp.2.2.2
  simp only [List.getD_cons_succ, List.getD_cons_zero] at this
  norm_num at this
  linarith

/-- One of the cells, with its corners. -/
theorem wide_rib : ((ribbedPlate (2 : ℚ) 2 1 { w := some 4, h := some (1 / 2) } {} .none 1 false).map
    fun g => g.2.any fun r => decide (((r[6]?).bind fun n => g.1[n]?) = some [0, 2, 1 / 2])) = some true := by decide +kernel

/-- **C62** is false for ribs wider than the plate: the plate gets the width of the rib. -/
theorem C62_wide_false : ¬ ∀ (lx ly t : ℚ) (ax ay : RibArgs ℚ), 0 < lx → 0 < ly → 0 < t →
    (∀ w h e, ax.get = some (w, h, e) → 0 < w ∧ 0 < h) → (∀ w h e, ay.get = some (w, h, e) → 0 < w ∧ 0 < h) →
    Touches t ax.get → Touches t ay.get →
    ∃ C T, ribbedPlate lx ly t ax ay .none 1 false = some (C, T) ∧
      BoxMesh lcH8 C T (RibbedPlate lx ly t ax.get ay.get) := by
  intro h
  obtain ⟨C, T, e, bm⟩ := h 2 2 1 { w := some 4, h := some (1 / 2) } {} (by norm_num) (by norm_num) (by norm_num)
    (by rintro w h e q; simp only [RibArgs.get, Option.some.injEq, Prod.mk.injEq] at q
        obtain ⟨rfl, rfl, rfl⟩ := q; norm_num)
    (by rintro w h e q; simp [RibArgs.get] at q)
    (by rintro w h e q; simp only [RibArgs.get, Option.getD_none, Option.some.injEq, Prod.mk.injEq] at q
        obtain ⟨rfl, rfl, rfl⟩ := q; norm_num)
    (by rintro w h e q; simp [RibArgs.get] at q)
  have hz := wide_rib
  rw [e] at hz
  simp only [Option.map_some, Option.some.injEq, List.any_eq_true, decide_eq_true_eq] at hz
  obtain ⟨r, hr, hq⟩ := hz
  obtain ⟨lo, hi, a1, a2, a3, hb⟩ := bm.box r hr
  obtain ⟨-, n, e1, e2⟩ := hb.ends hexH8
  rw [e1, Option.bind_some, e2] at hq
  simp only [Option.some.injEq, List.cons.injEq, and_true] at hq
  obtain ⟨q1, q2, q3⟩ := hq
  have hs := (bm.cover hi).2 ⟨r, hr, lo, hi, hb, ⟨a1.le, le_refl _⟩, ⟨a2.le, le_refl _⟩, ⟨a3.le, le_refl _⟩⟩
  rcases hs with ⟨-, hy, -⟩ | ⟨w, h', e', hq, -, -, hz⟩ | ⟨w, h', e', hq, -⟩
  · rw [q2] at hy; norm_num at hy
  · simp only [RibArgs.get, Option.getD_none, Option.some.injEq, Prod.mk.injEq] at hq
    obtain ⟨rfl, rfl, rfl⟩ := hq
    rw [q3] at hz; norm_num at hz
  · simp [RibArgs.get] at hq

/-- The requirements are met by the plate of the documentation (recipes.py 239-243). -/
example : PlateOK (5 : ℚ) 5 1 (some (1, 2, 1 / 20)) (some (1, 2, -1 / 20)) := by
  refine ⟨by norm_num, by norm_num, by norm_num, ?_, ?_, ?_, ?_⟩ <;> intro w h e q <;>
    simp only [Option.some.injEq, Prod.mk.injEq] at q <;> obtain ⟨rfl, rfl, rfl⟩ := q <;> norm_num

end PM
