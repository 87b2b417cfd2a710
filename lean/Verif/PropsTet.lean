import Verif.Tet
import Verif.Extrude
import Mathlib.Algebra.Order.Field.Rat

/-!
# C30: tetrahedra
-/

set_option linter.unusedSectionVars false

namespace PM

/-! ## specification -/

section
variable {K : Type} [Field K]

/-- `n` are affine coordinates of `p` in the tetrahedron. -/
structure IsNat4 (t : Tet K) (p : V3 K) (n : N4 K) : Prop where
  sum : n.n1 + n.n2 + n.n3 + n.n4 = 1
  point : lincomb [n.n1, n.n2, n.n3, n.n4] [t.p0, t.p1, t.p2, t.p3] = p

/-- The four corners. -/
def Tet.corners (t : Tet K) : List (V3 K) := [t.p0, t.p1, t.p2, t.p3]

/-! ## volume -/

/-- **C30** six times the volume is the determinant of the edges from the first corner: the orientation is positive if
the fourth corner is on the side of the right-handed normal of the first three. -/
theorem C30_det [CharZero K] (t : Tet K) : 6 * volTet t = V3.det3 (t.p1 - t.p0) (t.p2 - t.p0) (t.p3 - t.p0) := by
  simp only [volTet, V3.dot, V3.cross, V3.det3, V3.sub_x, V3.sub_y, V3.sub_z]
  field_simp; ring

/-- **C30** moving the tetrahedron does not change the volume. -/
theorem C30_translation (t : Tet K) (v : V3 K) : volTet ⟨t.p0 + v, t.p1 + v, t.p2 + v, t.p3 + v⟩ = volTet t := by
  simp only [volTet, V3.dot, V3.cross, V3.sub_x, V3.sub_y, V3.sub_z, V3.add_x, V3.add_y, V3.add_z]
  ring

/-- **C30** exchanging two corners changes the sign. -/
theorem C30_alternating (a b c d : V3 K) :
    volTet ⟨b, a, c, d⟩ = -volTet ⟨a, b, c, d⟩ ∧ volTet ⟨a, c, b, d⟩ = -volTet ⟨a, b, c, d⟩ ∧
    volTet ⟨a, b, d, c⟩ = -volTet ⟨a, b, c, d⟩ ∧ volTet ⟨c, b, a, d⟩ = -volTet ⟨a, b, c, d⟩ ∧
    volTet ⟨a, d, c, b⟩ = -volTet ⟨a, b, c, d⟩ ∧ volTet ⟨d, b, c, a⟩ = -volTet ⟨a, b, c, d⟩ := by
  simp only [volTet, V3.dot, V3.cross, V3.sub_x, V3.sub_y, V3.sub_z]
  refine ⟨?_, ?_, ?_, ?_, ?_, ?_⟩ <;> ring

/-- **C30** splitting at any point (also outside) conserves the volume. -/
theorem C30_split (a b c d p : V3 K) :
    volTet ⟨a, b, c, d⟩ = volTet ⟨p, b, c, d⟩ + volTet ⟨a, p, c, d⟩ + volTet ⟨a, b, p, d⟩ + volTet ⟨a, b, c, p⟩ := by
  simp only [volTet, V3.dot, V3.cross, V3.sub_x, V3.sub_y, V3.sub_z]
  ring

/-- **C30** an affine map multiplies volumes by its determinant, and the corner of the unit cube has volume 1/6. With
`C30_translation` this determines the volume of every tetrahedron. -/
theorem C30_affine (A : Aff K) (t : Tet K) :
    volTet ⟨A.app t.p0, A.app t.p1, A.app t.p2, A.app t.p3⟩ = A.det * volTet t ∧
    volTet (⟨⟨0, 0, 0⟩, ⟨1, 0, 0⟩, ⟨0, 1, 0⟩, ⟨0, 0, 1⟩⟩ : Tet K) = 1 / 6 := by
  constructor
  · simp only [volTet, Aff.app, Aff.det, V3.det3, V3.dot, V3.cross, V3.sub_x, V3.sub_y, V3.sub_z, V3.add_x, V3.add_y,
      V3.add_z, V3.smul_x, V3.smul_y, V3.smul_z]
    ring
  · simp [volTet, V3.dot, V3.cross]

/-! ## natural coordinates -/

theorem isNat4_iff {t : Tet K} {p : V3 K} {n : N4 K} : IsNat4 t p n ↔
    n.n1 + n.n2 + n.n3 + n.n4 = 1 ∧
    n.n1 * t.p0.x + n.n2 * t.p1.x + n.n3 * t.p2.x + n.n4 * t.p3.x = p.x ∧
    n.n1 * t.p0.y + n.n2 * t.p1.y + n.n3 * t.p2.y + n.n4 * t.p3.y = p.y ∧
    n.n1 * t.p0.z + n.n2 * t.p1.z + n.n3 * t.p2.z + n.n4 * t.p3.z = p.z := by
  have hx : ∀ a b c d : K, a + (b + (c + (d + 0))) = a + b + c + d := by intros; ring
  constructor
  · rintro ⟨h, rfl⟩
    simp only [lincomb, V3.add_x, V3.add_y, V3.add_z, V3.smul_x, V3.smul_y, V3.smul_z, V3.zero_x, V3.zero_y, V3.zero_z, hx]
    exact ⟨h, trivial, trivial, trivial⟩
  · rintro ⟨h, h1, h2, h3⟩
    refine ⟨h, ?_⟩
    ext
    · rw [← h1]; simp only [lincomb, V3.add_x, V3.smul_x, V3.zero_x, hx]
    · rw [← h2]; simp only [lincomb, V3.add_y, V3.smul_y, V3.zero_y, hx]
    · rw [← h3]; simp only [lincomb, V3.add_z, V3.smul_z, V3.zero_z, hx]

/-- With affine coordinates the volumes with a corner replaced are these coordinates times the volume. -/
theorem vol_replace {t : Tet K} {p : V3 K} {n : N4 K} (h : IsNat4 t p n) :
    volTet { t with p0 := p } = n.n1 * volTet t ∧ volTet { t with p1 := p } = n.n2 * volTet t ∧
    volTet { t with p2 := p } = n.n3 * volTet t ∧ volTet { t with p3 := p } = n.n4 * volTet t := by
  obtain ⟨h0, h1, h2, h3⟩ := isNat4_iff.1 h
  have e : n.n4 = 1 - n.n1 - n.n2 - n.n3 := by linear_combination h0
  rw [e] at h1 h2 h3 ⊢
  simp only [volTet, V3.dot, V3.cross, V3.sub_x, V3.sub_y, V3.sub_z, ← h1, ← h2, ← h3]
  refine ⟨?_, ?_, ?_, ?_⟩ <;> ring

/-- **C30** natural coordinates are unique. -/
theorem C30_unique {t : Tet K} (h : volTet t ≠ 0) {p : V3 K} {n m : N4 K} (hn : IsNat4 t p n) (hm : IsNat4 t p m) :
    n = m := by
  obtain ⟨a1, a2, a3, a4⟩ := vol_replace hn
  obtain ⟨b1, b2, b3, b4⟩ := vol_replace hm
  ext
  · exact mul_right_cancel₀ h (a1.symm.trans b1)
  · exact mul_right_cancel₀ h (a2.symm.trans b2)
  · exact mul_right_cancel₀ h (a3.symm.trans b3)
  · exact mul_right_cancel₀ h (a4.symm.trans b4)

/-- **C30** `glob_to_nat_tet` gives the natural coordinates of every point in every tetrahedron of non-zero volume, of
either orientation. -/
theorem C30_glob_to_nat [CharZero K] {t : Tet K} (h : volTet t ≠ 0) (p : V3 K) : IsNat4 t p (globToNatTet p t) := by
  rw [isNat4_iff]
  simp only [globToNatTet]
  refine ⟨by ring, ?_⟩
  generalize hd : volTet t = V at h ⊢
  have hd6 : 6 * V = V3.det3 (t.p1 - t.p0) (t.p2 - t.p0) (t.p3 - t.p0) := by rw [← hd, C30_det]
  simp only [volTet, V3.dot, V3.cross, V3.sub_x, V3.sub_y, V3.sub_z, V3.det3] at hd6 ⊢
  refine ⟨?_, ?_, ?_⟩ <;> field_simp
  · linear_combination (t.p3.x - p.x) * hd6
  · linear_combination (t.p3.y - p.y) * hd6
  · linear_combination (t.p3.z - p.z) * hd6

/-- **C30** `glob_to_nat_tet` recovers the natural coordinates from the point. -/
theorem C30_nat_to_glob [CharZero K] {t : Tet K} (h : volTet t ≠ 0) {n : N4 K} (hs : n.n1 + n.n2 + n.n3 + n.n4 = 1) :
    globToNatTet (lincomb [n.n1, n.n2, n.n3, n.n4] t.corners) t = n :=
  C30_unique h (C30_glob_to_nat h _) ⟨hs, rfl⟩

/-- **C30** the local coordinates of natural coordinates are the point of the master tetrahedron with them. -/
theorem C30_nat_to_loc {n : N4 K} (hs : n.n1 + n.n2 + n.n3 + n.n4 = 1) : IsNat4 lcoordsTet (natToLocTet n) n := by
  rw [isNat4_iff]
  refine ⟨hs, ?_, ?_, ?_⟩ <;> simp [natToLocTet, lcoordsTet]

end

section
variable {K : Type} [Field K] [LinearOrder K] [IsStrictOrderedRing K]

/-- **C30** volumes of several tetrahedra, without sign. -/
theorem C30_bulk (ts : List (Tet K)) : volTetBulk ts = ts.map fun t => |volTet t| := by
  rw [volTetBulk, List.map_map]; rfl

theorem hull4 {t : Tet K} {p : V3 K} : Hull t.corners p ↔ ∃ n, IsNat4 t p n ∧ 0 ≤ n.n1 ∧ 0 ≤ n.n2 ∧ 0 ≤ n.n3 ∧ 0 ≤ n.n4 := by
  constructor
  · rintro ⟨w, hl, hp, hs, hw⟩
    match w, hl with
    | [a, b, c, d], _ =>
      simp at hp hs
      exact ⟨⟨a, b, c, d⟩, ⟨by simpa only [add_assoc] using hs, hw⟩, hp.1, hp.2.1, hp.2.2.1, hp.2.2.2⟩
  · rintro ⟨n, hn, h1, h2, h3, h4⟩
    exact ⟨[n.n1, n.n2, n.n3, n.n4], rfl, by simp [*], by simpa [add_assoc] using hn.sum, hn.point⟩

theorem openHull4 {t : Tet K} {p : V3 K} : OpenHull t.corners p ↔
    ∃ n, IsNat4 t p n ∧ 0 < n.n1 ∧ 0 < n.n2 ∧ 0 < n.n3 ∧ 0 < n.n4 := by
  constructor
  · rintro ⟨w, hl, hp, hs, hw⟩
    match w, hl with
    | [a, b, c, d], _ =>
      simp at hp hs
      exact ⟨⟨a, b, c, d⟩, ⟨by simpa only [add_assoc] using hs, hw⟩, hp.1, hp.2.1, hp.2.2.1, hp.2.2.2⟩
  · rintro ⟨n, hn, h1, h2, h3, h4⟩
    exact ⟨[n.n1, n.n2, n.n3, n.n4], rfl, by simp [*], by simpa [add_assoc] using hn.sum, hn.point⟩

/-- **C30** the point-in-tetrahedron test, for either orientation. With tolerance zero it is membership in the
*interior*; with a positive tolerance all points of the closed tetrahedron pass, and the points that pass for every
positive tolerance are exactly the convex combinations of the corners. Missing part of the full property: points of
the faces do not pass with tolerance zero (`C30_boundary_false`). -/
theorem C30_pip_partial {t : Tet K} (h : volTet t ≠ 0) (p : V3 K) :
    (pipTet 0 (globToNatTet p t) = true ↔ OpenHull t.corners p) ∧
    (∀ tol : K, 0 < tol → Hull t.corners p → pipTet tol (globToNatTet p t) = true) ∧
    (∀ tol : K, pipTet tol (globToNatTet p t) = true →
      ∃ n, IsNat4 t p n ∧ -tol < n.n1 ∧ -tol < n.n2 ∧ -tol < n.n3 ∧ -tol < n.n4) ∧
    ((∀ tol : K, 0 < tol → pipTet tol (globToNatTet p t) = true) ↔ Hull t.corners p) := by
  have hn := C30_glob_to_nat h p
  have hs := hn.sum
  have huniq : ∀ m, IsNat4 t p m → m = globToNatTet p t := fun m hm => C30_unique h hm hn
  have htol : ∀ tol : K, pipTet tol (globToNatTet p t) = true →
      ∃ n, IsNat4 t p n ∧ -tol < n.n1 ∧ -tol < n.n2 ∧ -tol < n.n3 ∧ -tol < n.n4 := by
    intro tol hp
    simp only [pipTet, Bool.and_eq_true, decide_eq_true_eq] at hp
    exact ⟨_, hn, hp.1.1.1.1, hp.1.1.1.2, hp.1.1.2, hp.1.2⟩
  have hclosed : ∀ tol : K, 0 < tol → Hull t.corners p → pipTet tol (globToNatTet p t) = true := by
    intro tol h0 hh
    obtain ⟨m, hm, h1, h2, h3, h4⟩ := hull4.1 hh
    rw [huniq m hm] at h1 h2 h3 h4
    simp only [pipTet, Bool.and_eq_true, decide_eq_true_eq]
    refine ⟨⟨⟨⟨?_, ?_⟩, ?_⟩, ?_⟩, ⟨⟨?_, ?_⟩, ?_⟩, ?_⟩ <;> linarith
  refine ⟨?_, hclosed, htol, ?_, fun hi tol h0 => hclosed tol h0 hi⟩
  · rw [openHull4]
    constructor
    · intro hp
      obtain ⟨n, h1, h2, h3, h4, h5⟩ := htol 0 hp
      rw [neg_zero] at h2 h3 h4 h5
      exact ⟨n, h1, h2, h3, h4, h5⟩
    · rintro ⟨m, hm, h1, h2, h3, h4⟩
      rw [huniq m hm] at h1 h2 h3 h4
      simp only [pipTet, Bool.and_eq_true, decide_eq_true_eq]
      refine ⟨⟨⟨⟨?_, ?_⟩, ?_⟩, ?_⟩, ⟨⟨?_, ?_⟩, ?_⟩, ?_⟩ <;> linarith
  · intro hall
    rw [hull4]
    refine ⟨_, hn, ?_⟩
    have key : ∀ a : K, (∀ tol : K, 0 < tol → -tol < a) → 0 ≤ a := by
      intro a ha
      by_contra hlt
      push Not at hlt
      have := ha (-a / 2) (by linarith)
      linarith
    refine ⟨key _ fun tol h0 => ?_, key _ fun tol h0 => ?_, key _ fun tol h0 => ?_, key _ fun tol h0 => ?_⟩ <;>
      · obtain ⟨n, h1, h2, h3, h4, h5⟩ := htol tol (hall tol h0)
        rw [huniq n h1] at h2 h3 h4 h5
        assumption

/-- A tetrahedron of negative volume and a point inside. -/
example : volTet (⟨⟨0, 0, 0⟩, ⟨0, 2, 0⟩, ⟨1, 0, 0⟩, ⟨0, 0, 3⟩⟩ : Tet ℚ) = -1 ∧
    globToNatTet (⟨1/4, 1/2, 3/4⟩ : V3 ℚ) ⟨⟨0, 0, 0⟩, ⟨0, 2, 0⟩, ⟨1, 0, 0⟩, ⟨0, 0, 3⟩⟩ = ⟨1/4, 1/4, 1/4, 1/4⟩ := by
  decide +kernel

/-- **C30** (exact account) the test for every tetrahedron that is not flat, every point and every tolerance. -/
theorem C30_exact {t : Tet K} (h : volTet t ≠ 0) {p : V3 K} {n : N4 K} (hn : IsNat4 t p n) (tol : K) :
    pipTet tol (globToNatTet p t) = true ↔ ∀ a ∈ [n.n1, n.n2, n.n3, n.n4], -tol < a ∧ a < 1 + tol := by
  rw [C30_unique h (C30_glob_to_nat h p) hn]
  simp only [pipTet, Bool.and_eq_true, decide_eq_true_eq, List.forall_mem_cons, List.not_mem_nil, IsEmpty.forall_iff, implies_true, and_true]
  tauto

/-- **C30** the points of the faces do not pass with tolerance zero. -/
theorem C30_boundary_false :
    Hull (lcoordsTet : Tet ℚ).corners ⟨1/3, 1/3, 0⟩ ∧ volTet (lcoordsTet : Tet ℚ) ≠ 0 ∧
    pipTet 0 (globToNatTet (⟨1/3, 1/3, 0⟩ : V3 ℚ) lcoordsTet) = false := by
  refine ⟨hull4.2 ⟨⟨1/3, 1/3, 1/3, 0⟩, isNat4_iff.2 ?_, ?_⟩, by decide +kernel, by decide +kernel⟩
  · simp [lcoordsTet]; norm_num
  · norm_num

/-- **C30** the table of tests of several points and tetrahedra, and the one restricted to candidates: entry `(i, k)`
is the test of point `i` with tetrahedron `k` (with candidate `k` of point `i`). -/
theorem C30_tables {tol : K} {points : List (V3 K)} {ts : List (Tet K)} :
    (∀ (i k : Nat) (p : V3 K) (t : Tet K), points[i]? = some p → ts[k]? = some t →
      ((pipTetBulk tol points ts)[i]? >>= fun r => r[k]?) = some (pipTet tol (globToNatTet p t))) ∧
    ∀ {nb : List (List Nat)}, nb.length = points.length → (∀ r ∈ nb, ∀ k ∈ r, k < ts.length) →
      ∃ R, pipTetKnn tol points ts nb = some R ∧
      ∀ (i k c : Nat) (p : V3 K) (r : List Nat) (t : Tet K), points[i]? = some p → nb[i]? = some r → r[k]? = some c →
        ts[c]? = some t → (R[i]? >>= fun r => r[k]?) = some (pipTet tol (globToNatTet p t)) := by
  constructor
  · intro i k p t hp ht
    simp [pipTetBulk, hp, ht]
  · intro nb hl hin
    have hrow : ∀ x ∈ points.zip nb, (x.2.mapM fun k => (ts[k]?).map fun t => pipTet tol (globToNatTet x.1 t)) =
        some (x.2.map fun k => pipTet tol (globToNatTet x.1 (ts.getD k ⟨0, 0, 0, 0⟩))) := by
      intro x hx
      apply mapM_some
      intro k hk
      have := hin x.2 (List.of_mem_zip hx).2 k hk
      rw [List.getD_eq_getElem?_getD, List.getElem?_eq_getElem this]; rfl
    refine ⟨_, mapM_some hrow, ?_⟩
    intro i k c p r t hp hr hc ht
    have hz : (points.zip nb)[i]? = some (p, r) := by
      rw [List.zip, List.getElem?_zipWith, hp, hr]
    rw [List.getElem?_map, hz]
    simp [hc, ht]

end

end PM
