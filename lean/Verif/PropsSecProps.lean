import Verif.SecProps
import Verif.PropsSection
import Verif.PropsQuad

/-!
# C117: properties of cross sections
-/

namespace PM

/-! ## specification -/

/-- A triangle of the plane. -/
abbrev STri := V3 ℝ × V3 ℝ × V3 ℝ

/-- The triangles of a mesh: the first three nodes of the rows. -/
noncomputable def meshTris (C : List (List ℝ)) (T : Topo) : List STri :=
  T.map fun r => (pt3 C (r.getD 0 0), pt3 C (r.getD 1 0), pt3 C (r.getD 2 0))

/-- The integral of a function over a region made of triangles (counter-clockwise), as an integral over the master triangle. -/
noncomputable def secInt (ts : List STri) (f : V3 ℝ → ℝ) : ℝ :=
  (ts.map fun t => secArea2 t.1 t.2.1 t.2.2 * triInt fun l => f (t.1 + (l.x • (t.2.1 - t.1) + l.y • (t.2.2 - t.1)))).sum

/-- The area of a region. -/
noncomputable def secArea (ts : List STri) : ℝ := secInt ts fun _ => 1

/-- `c` is the centroid of a region. -/
def IsCentroid (ts : List STri) (c : V3 ℝ) : Prop :=
  secInt ts (fun p => p.x) = c.x * secArea ts ∧ secInt ts (fun p => p.y) = c.y * secArea ts

/-- What the library has to return for a section: the area and the second moments about the axes through the centroid. -/
structure SecContract (ts : List STri) (v : SecVals ℝ) : Prop where
  pos : 0 < secArea ts
  area : v.area = secArea ts
  ixx : ∀ c, IsCentroid ts c → v.ixx = secInt ts fun p => (p.y - c.y) ^ 2
  iyy : ∀ c, IsCentroid ts c → v.iyy = secInt ts fun p => (p.x - c.x) ^ 2

/-! ## integrals of quadratic functions -/

/-- A quadratic function of the plane. -/
noncomputable def quadFn (k0 k1 k2 k3 k4 k5 : ℝ) (p : V3 ℝ) : ℝ :=
  k0 + k1 * p.x + k2 * p.y + k3 * p.x ^ 2 + k4 * (p.x * p.y) + k5 * p.y ^ 2

theorem tri_quad (a b c : V3 ℝ) (k0 k1 k2 k3 k4 k5 : ℝ) :
    triInt (fun l => quadFn k0 k1 k2 k3 k4 k5 (a + (l.x • (b - a) + l.y • (c - a)))) =
      (quadFn k0 k1 k2 k3 k4 k5 (mid a b) + quadFn k0 k1 k2 k3 k4 k5 (mid b c) + quadFn k0 k1 k2 k3 k4 k5 (mid c a)) / 6 := by
  have e : triInt (fun l => quadFn k0 k1 k2 k3 k4 k5 (a + (l.x • (b - a) + l.y • (c - a)))) = triInt (polyVal
      [⟨quadFn k0 k1 k2 k3 k4 k5 a, 0, 0, 0⟩,
       ⟨k1 * (b.x - a.x) + k2 * (b.y - a.y) + 2 * k3 * (a.x * (b.x - a.x)) + k4 * (a.x * (b.y - a.y) + (b.x - a.x) * a.y) +
          2 * k5 * (a.y * (b.y - a.y)), 1, 0, 0⟩,
       ⟨k1 * (c.x - a.x) + k2 * (c.y - a.y) + 2 * k3 * (a.x * (c.x - a.x)) + k4 * (a.x * (c.y - a.y) + (c.x - a.x) * a.y) +
          2 * k5 * (a.y * (c.y - a.y)), 0, 1, 0⟩,
       ⟨k3 * (b.x - a.x) ^ 2 + k4 * ((b.x - a.x) * (b.y - a.y)) + k5 * (b.y - a.y) ^ 2, 2, 0, 0⟩,
       ⟨2 * k3 * ((b.x - a.x) * (c.x - a.x)) + k4 * ((b.x - a.x) * (c.y - a.y) + (c.x - a.x) * (b.y - a.y)) +
          2 * k5 * ((b.y - a.y) * (c.y - a.y)), 1, 1, 0⟩,
       ⟨k3 * (c.x - a.x) ^ 2 + k4 * ((c.x - a.x) * (c.y - a.y)) + k5 * (c.y - a.y) ^ 2, 0, 2, 0⟩]) := by
    unfold triInt
    congr 1; funext r; congr 1; funext s
    simp only [polyVal, quadFn, List.map_cons, List.map_nil, List.sum_cons, List.sum_nil, V3.add_x, V3.add_y, V3.smul_x, V3.smul_y,
      V3.sub_x, V3.sub_y]
    ring
  rw [e, triInt_poly]
  simp only [List.map_cons, List.map_nil, List.sum_cons, List.sum_nil, triMom, if_true, Nat.factorial, quadFn, mid]
  norm_num
  ring

/-- The integral of a quadratic function by the middles of the sides. -/
theorem secInt_quad (ts : List STri) (k0 k1 k2 k3 k4 k5 : ℝ) :
    secInt ts (quadFn k0 k1 k2 k3 k4 k5) = (ts.map fun t => secArea2 t.1 t.2.1 t.2.2 * ((quadFn k0 k1 k2 k3 k4 k5 (mid t.1 t.2.1) +
      quadFn k0 k1 k2 k3 k4 k5 (mid t.2.1 t.2.2) + quadFn k0 k1 k2 k3 k4 k5 (mid t.2.2 t.1)) / 6)).sum := by
  unfold secInt
  congr 1
  exact List.map_congr_left fun t _ => by rw [tri_quad]


theorem quad_one : (fun _ : V3 ℝ => (1 : ℝ)) = quadFn 1 0 0 0 0 0 := by funext p; simp [quadFn]
theorem quad_x : (fun p : V3 ℝ => p.x) = quadFn 0 1 0 0 0 0 := by funext p; simp [quadFn]
theorem quad_y : (fun p : V3 ℝ => p.y) = quadFn 0 0 1 0 0 0 := by funext p; simp [quadFn]
theorem quad_yy (c : ℝ) : (fun p : V3 ℝ => (p.y - c) ^ 2) = quadFn (c ^ 2) 0 (-2 * c) 0 0 1 := by funext p; simp [quadFn]; ring
theorem quad_xx (c : ℝ) : (fun p : V3 ℝ => (p.x - c) ^ 2) = quadFn (c ^ 2) (-2 * c) 0 1 0 0 := by funext p; simp [quadFn]; ring

theorem secInt_lin (ts : List STri) (u : ℝ) (k0 k1 k2 k3 k4 k5 l0 l1 l2 l3 l4 l5 : ℝ) :
    secInt ts (quadFn k0 k1 k2 k3 k4 k5) + u * secInt ts (quadFn l0 l1 l2 l3 l4 l5) =
      secInt ts (quadFn (k0 + u * l0) (k1 + u * l1) (k2 + u * l2) (k3 + u * l3) (k4 + u * l4) (k5 + u * l5)) := by
  rw [secInt_quad, secInt_quad, secInt_quad]
  induction ts with
  | nil => simp
  | cons t ts ih =>
    simp only [List.map_cons, List.sum_cons]
    rw [← ih]
    simp only [quadFn]
    ring

/-- A moved region. -/
noncomputable def moveTri (d : V3 ℝ) (t : STri) : STri := (t.1 - d, t.2.1 - d, t.2.2 - d)

theorem secInt_move (ts : List STri) (d : V3 ℝ) (f : V3 ℝ → ℝ) : secInt (ts.map (moveTri d)) f = secInt ts fun p => f (p - d) := by
  unfold secInt
  rw [List.map_map]
  congr 1
  apply List.map_congr_left
  intro t _
  simp only [Function.comp_apply, moveTri, secArea2_sub]
  congr 2
  funext l
  congr 1
  ext <;> simp <;> ring

theorem exists_centroid {ts : List STri} (h : 0 < secArea ts) : ∃ c, IsCentroid ts c :=
  ⟨⟨secInt ts (fun p => p.x) / secArea ts, secInt ts (fun p => p.y) / secArea ts, 0⟩, by
    constructor <;> simp only <;> rw [div_mul_cancel₀ _ h.ne']⟩

/-- Regions that agree for quadratic functions up to a translation have the same properties. -/
theorem SecContract.moved {ts ts' : List STri} {d : V3 ℝ}
    (h : ∀ k0 k1 k2 k3 k4 k5, secInt ts' (quadFn k0 k1 k2 k3 k4 k5) = secInt ts fun p => quadFn k0 k1 k2 k3 k4 k5 (p - d))
    {v : SecVals ℝ} (hv : SecContract ts v) : SecContract ts' v := by
  have hA : secArea ts' = secArea ts := by
    unfold secArea
    rw [quad_one, h]
    congr 1; funext p; simp [quadFn]
  have hx : ∀ u : ℝ, secInt ts (fun p => p.x - u) = secInt ts (fun p => p.x) - u * secArea ts := by
    intro u
    unfold secArea
    rw [quad_x, quad_one, show (fun p : V3 ℝ => p.x - u) = quadFn (0 + -u * 1) (1 + -u * 0) (0 + -u * 0) (0 + -u * 0) (0 + -u * 0) (0 + -u * 0) by
      funext p; simp [quadFn]; ring, ← secInt_lin]
    ring
  have hy : ∀ u : ℝ, secInt ts (fun p => p.y - u) = secInt ts (fun p => p.y) - u * secArea ts := by
    intro u
    unfold secArea
    rw [quad_y, quad_one, show (fun p : V3 ℝ => p.y - u) = quadFn (0 + -u * 1) (0 + -u * 0) (1 + -u * 0) (0 + -u * 0) (0 + -u * 0) (0 + -u * 0) by
      funext p; simp [quadFn]; ring, ← secInt_lin]
    ring
  have hc : ∀ c, IsCentroid ts' c → IsCentroid ts (c + d) := by
    rintro c ⟨h1, h2⟩
    rw [hA] at h1 h2
    rw [quad_x, h] at h1
    rw [quad_y, h] at h2
    rw [← quad_x] at h1
    rw [← quad_y] at h2
    have e1 := hx d.x
    have e2 := hy d.y
    simp only [V3.sub_x, V3.sub_y] at h1 h2
    constructor
    · rw [V3.add_x]; linarith
    · rw [V3.add_y]; linarith
  refine ⟨by rw [hA]; exact hv.pos, by rw [hA]; exact hv.area, fun c h1 => ?_, fun c h1 => ?_⟩
  · rw [hv.ixx _ (hc c h1), quad_yy c.y, h]
    congr 1; funext p; simp only [V3.add_y, V3.sub_y, quadFn]; ring
  · rw [hv.iyy _ (hc c h1), quad_xx c.x, h]
    congr 1; funext p; simp only [V3.add_x, V3.sub_x, quadFn]; ring

/-! ## the meshes of a section -/

theorem meshTris_move {s : SectionMesh ℝ} (h : SectionOK s) {C : List (List ℝ)} (hcen : IsCentred s.vertices 2 C) :
    ∃ d, meshTris C s.triangles = (meshTris s.vertices s.triangles).map (moveTri d) ∧
      ∀ r ∈ s.triangles, ∀ q, q < 6 → pt3 C (r.getD q 0) = pt3 s.vertices (r.getD q 0) - d := by
  obtain ⟨t, ht, hPt⟩ := hcen.translation
  have hpt : ∀ r ∈ s.triangles, ∀ q, q < 6 → pt3 C (r.getD q 0) = pt3 s.vertices (r.getD q 0) - ⟨t.getD 0 0, t.getD 1 0, 0⟩ := by
    intro r hr q hq
    rw [hPt]
    refine pt3_moved h.rect ht (h.nodes _ ⟨r, hr, ?_⟩)
    rw [List.getD_eq_getElem?_getD, List.getElem?_eq_getElem (by rw [h.six r hr]; exact hq)]
    exact List.getElem_mem _
  refine ⟨⟨t.getD 0 0, t.getD 1 0, 0⟩, ?_, hpt⟩
  unfold meshTris
  rw [List.map_map]
  apply List.map_congr_left
  intro r hr
  simp only [Function.comp_apply, moveTri, hpt r hr 0 (by decide), hpt r hr 1 (by decide), hpt r hr 2 (by decide)]

set_option maxRecDepth 4000 in
/-- **C117** the triangular meshes of a section, of the corners or of all nodes, have the area and the second moments of the section. -/
theorem C117_mesh {s : SectionMesh ℝ} (h : SectionOK s) {v : SecVals ℝ} (hv : SecContract (meshTris s.vertices s.triangles) v)
    (subdivide : Bool) : ∃ P T, sectionTrimesh s subdivide 1 = some (P, T) ∧ SecContract (meshTris P T) v := by
  cases subdivide with
  | false =>
    obtain ⟨P, T, C, h1, h2, h3, h4, -, -, h7, -⟩ := C86_corners h
    obtain ⟨d, hd, -⟩ := meshTris_move h h2
    refine ⟨P, T, h1, hv.moved (d := d) fun k0 k1 k2 k3 k4 k5 => ?_⟩
    rw [← secInt_move, ← hd]
    congr 1
    unfold meshTris
    apply List.ext_getElem (by simp [h3])
    intro i h8 h9
    simp only [List.length_map] at h8 h9
    have e := (h7 i _ _ (List.getElem?_eq_getElem h9) (List.getElem?_eq_getElem h8)).1
    simp only [List.getElem_map, e 0 (by decide), e 1 (by decide), e 2 (by decide)]
  | true =>
    obtain ⟨P, hP, hcen, -⟩ := C26_centralize_partial h.ne (Or.inl rfl) h.rect
    have hT := transformResult_eq h.pathOK 0 (w := transformWrites s.triangles pathSection 3) fun _ => mem_transformWrites
    obtain ⟨d, hd, hpt⟩ := meshTris_move h hcen
    refine ⟨P, transformed s.triangles pathSection 0, ?_, hv.moved (d := d) fun k0 k1 k2 k3 k4 k5 => ?_⟩
    · rw [sectionTrimesh, sectionCoords, hP, Option.bind_some, if_pos rfl, if_pos rfl, transformTopology, hT]
      rfl
    · rw [← secInt_move, ← hd, secInt_quad, secInt_quad]
      unfold meshTris
      rw [transformed, List.map_map, List.map_map, sum_flatMap']
      congr 1
      apply List.map_congr_left
      intro r hr
      have e3 : pt3 P (r.getD 3 0) = mid (pt3 P (r.getD 1 0)) (pt3 P (r.getD 2 0)) := by
        rw [hpt r hr 3 (by decide), hpt r hr 1 (by decide), hpt r hr 2 (by decide), mid_sub, h.h3 r hr]
      have e4 : pt3 P (r.getD 4 0) = mid (pt3 P (r.getD 2 0)) (pt3 P (r.getD 0 0)) := by
        rw [hpt r hr 4 (by decide), hpt r hr 0 (by decide), hpt r hr 2 (by decide), mid_sub, h.h4 r hr]
      have e5 : pt3 P (r.getD 5 0) = mid (pt3 P (r.getD 0 0)) (pt3 P (r.getD 1 0)) := by
        rw [hpt r hr 5 (by decide), hpt r hr 1 (by decide), hpt r hr 0 (by decide), mid_sub, h.h5 r hr]
      simp only [pathSection, List.map_cons, List.map_nil, List.sum_cons, List.sum_nil, Function.comp_apply, List.getD_cons_zero,
        List.getD_cons_succ]
      rw [e3, e4, e5]
      generalize pt3 P (r.getD 0 0) = a
      generalize pt3 P (r.getD 1 0) = b
      generalize pt3 P (r.getD 2 0) = c
      simp only [secArea2, quadFn, mid, V3.add_x, V3.add_y, V3.smul_x, V3.smul_y]
      ring

/-! ## turned sections -/

/-- A point turned about the origin. -/
noncomputable def turnPt (c s : ℝ) (p : V3 ℝ) : V3 ℝ := ⟨c * p.x - s * p.y, s * p.x + c * p.y, p.z⟩

/-- A turned region. -/
noncomputable def turnTri (c s : ℝ) (t : STri) : STri := (turnPt c s t.1, turnPt c s t.2.1, turnPt c s t.2.2)

/-- The sum of two squares. -/
theorem secInt_squares (ts : List STri) (a b c a' b' c' : ℝ) :
    (secInt ts fun p => (a * p.x + b * p.y + c) ^ 2) + (secInt ts fun p => (a' * p.x + b' * p.y + c') ^ 2) =
      secInt ts (quadFn (c ^ 2 + c' ^ 2) (2 * a * c + 2 * a' * c') (2 * b * c + 2 * b' * c') (a ^ 2 + a' ^ 2) (2 * a * b + 2 * a' * b')
        (b ^ 2 + b' ^ 2)) := by
  have e : ∀ a b c : ℝ, (fun p : V3 ℝ => (a * p.x + b * p.y + c) ^ 2) = quadFn (c ^ 2) (2 * a * c) (2 * b * c) (a ^ 2) (2 * a * b) (b ^ 2) := by
    intro a b c; funext p; simp only [quadFn]; ring
  rw [e, e]
  have := secInt_lin ts 1 (c ^ 2) (2 * a * c) (2 * b * c) (a ^ 2) (2 * a * b) (b ^ 2) (c' ^ 2) (2 * a' * c') (2 * b' * c') (a' ^ 2)
    (2 * a' * b') (b' ^ 2)
  simpa only [one_mul] using this

theorem secInt_turn (ts : List STri) {c s : ℝ} (h : c ^ 2 + s ^ 2 = 1) (f : V3 ℝ → ℝ) :
    secInt (ts.map (turnTri c s)) f = secInt ts fun p => f (turnPt c s p) := by
  unfold secInt
  rw [List.map_map]
  congr 1
  apply List.map_congr_left
  intro t _
  have e : secArea2 (turnPt c s t.1) (turnPt c s t.2.1) (turnPt c s t.2.2) = secArea2 t.1 t.2.1 t.2.2 := by
    simp only [secArea2, turnPt]
    linear_combination ((t.2.1.x - t.1.x) * (t.2.2.y - t.1.y) - (t.2.2.x - t.1.x) * (t.2.1.y - t.1.y)) * h
  simp only [Function.comp_apply, turnTri, e]
  congr 2
  funext l
  congr 1
  ext <;> simp [turnPt] <;> ring

/-- **C117** the area and `Ix` do not depend on the axes. -/
theorem C117_turn {ts : List STri} {c s : ℝ} (h : c ^ 2 + s ^ 2 = 1) {v w : SecVals ℝ} (hv : SecContract ts v)
    (hw : SecContract (ts.map (turnTri c s)) w) : w.area = v.area ∧ w.ixx + w.iyy = v.ixx + v.iyy := by
  have hA : secArea (ts.map (turnTri c s)) = secArea ts := by unfold secArea; rw [secInt_turn ts h]
  obtain ⟨g, hg⟩ := exists_centroid hv.pos
  have hg' : IsCentroid (ts.map (turnTri c s)) (turnPt c s g) := by
    obtain ⟨h1, h2⟩ := hg
    constructor
    · rw [secInt_turn ts h, hA, show (fun p : V3 ℝ => (turnPt c s p).x) =
        quadFn (0 + -s * 0) (c + -s * 0) (0 + -s * 1) (0 + -s * 0) (0 + -s * 0) (0 + -s * 0) by
          funext p; simp [quadFn, turnPt]; ring, ← secInt_lin, ← quad_y, h2]
      have : secInt ts (quadFn 0 c 0 0 0 0) = c * (g.x * secArea ts) := by
        rw [← h1, quad_x]
        have := secInt_lin ts c 0 0 0 0 0 0 0 1 0 0 0 0
        have z : secInt ts (quadFn 0 0 0 0 0 0) = 0 := by rw [secInt_quad]; simp [quadFn]
        rw [z] at this
        simpa using this.symm
      rw [this]; simp only [turnPt]; ring
    · rw [secInt_turn ts h, hA, show (fun p : V3 ℝ => (turnPt c s p).y) =
        quadFn (0 + c * 0) (s + c * 0) (0 + c * 1) (0 + c * 0) (0 + c * 0) (0 + c * 0) by
          funext p; simp [quadFn, turnPt], ← secInt_lin, ← quad_y, h2]
      have : secInt ts (quadFn 0 s 0 0 0 0) = s * (g.x * secArea ts) := by
        rw [← h1, quad_x]
        have := secInt_lin ts s 0 0 0 0 0 0 0 1 0 0 0 0
        have z : secInt ts (quadFn 0 0 0 0 0 0) = 0 := by rw [secInt_quad]; simp [quadFn]
        rw [z] at this
        simpa using this.symm
      rw [this]; simp only [turnPt]; ring
  refine ⟨by rw [hw.area, hv.area, hA], ?_⟩
  rw [hw.ixx _ hg', hw.iyy _ hg', hv.ixx _ hg, hv.iyy _ hg, secInt_turn ts h, secInt_turn ts h]
  have e1 : (fun p : V3 ℝ => ((turnPt c s p).y - (turnPt c s g).y) ^ 2) = fun p => (s * p.x + c * p.y + -(s * g.x + c * g.y)) ^ 2 := by
    funext p; simp only [turnPt]; ring
  have e2 : (fun p : V3 ℝ => ((turnPt c s p).x - (turnPt c s g).x) ^ 2) = fun p => (c * p.x + (-s) * p.y + -(c * g.x - s * g.y)) ^ 2 := by
    funext p; simp only [turnPt]; ring
  have e3 : (fun p : V3 ℝ => (p.y - g.y) ^ 2) = fun p => (0 * p.x + 1 * p.y + -g.y) ^ 2 := by funext p; ring
  have e4 : (fun p : V3 ℝ => (p.x - g.x) ^ 2) = fun p => (1 * p.x + 0 * p.y + -g.x) ^ 2 := by funext p; ring
  rw [e1, e2, e3, e4, secInt_squares, secInt_squares]
  congr 2
  · linear_combination (g.x ^ 2 + g.y ^ 2) * h
  · linear_combination (-2 * g.x) * h
  · linear_combination (-2 * g.y) * h
  · linear_combination h
  · ring
  · linear_combination h

/-! ## the object -/

section
variable {K : Type} [Field K]

/-- The dictionary of a section. -/
def secDict (v : SecVals K) : List (String × K) := [("A", v.area), ("Ix", v.ixx + v.iyy), ("Iy", v.ixx), ("Iz", v.iyy)]

theorem calcProps_eq (v : SecVals K) (s : SecState K) : calcProps v s = some (⟨true, true, some (secDict v)⟩, secDict v) := by
  simp [calcProps, geometricProps, secA, secIx, secIy, secIz, calcGeo, calcWarp, secDict]

/-- What can be stored is the dictionary; if it is stored, everything was computed. -/
theorem secRun_inv (v : SecVals K) (ops : List SecOp) (s : SecState K) (h : ∀ d, s.props = some d → d = secDict v ∧ s.geo = true) :
    ∀ d, (ops.foldl (SecOp.run v) s).props = some d → d = secDict v ∧ (ops.foldl (SecOp.run v) s).geo = true := by
  induction ops generalizing s with
  | nil => exact h
  | cons o ops ih =>
    rw [List.foldl_cons]
    refine ih _ ?_
    intro d hd
    cases o with
    | geo => exact ⟨(h d hd).1, rfl⟩
    | warp =>
      simp only [SecOp.run, calcWarp] at hd ⊢
      cases hg : s.geo with
      | true =>
        simp only [hg, if_true, Option.getD_some] at hd ⊢
        exact ⟨(h d hd).1, trivial⟩
      | false =>
        simp only [hg, Bool.false_eq_true, if_false, Option.getD_none] at hd ⊢
        exact absurd (h d hd).2 (by simp [hg])
    | props =>
      simp only [SecOp.run, calcProps_eq, Option.map_some, Option.getD_some, Option.some.injEq] at hd ⊢
      exact ⟨hd.symm, trivial⟩
    | get =>
      simp only [SecOp.run, getProps] at hd ⊢
      cases hp : s.props with
      | none =>
        simp only [hp, calcProps_eq, Option.map_some, Option.getD_some, Option.some.injEq] at hd ⊢
        exact ⟨hd.symm, trivial⟩
      | some d' =>
        simp only [hp, Option.map_some, Option.getD_some] at hd ⊢
        exact h d (hp.trans hd)

/-- **C117** whatever was called before, `get_section_properties()` succeeds and returns the area, the two second moments of the section
and their sum, by these names; from then on `section_properties` is this dictionary. -/
theorem C117_get (v : SecVals K) (ops : List SecOp) : ∃ s, getProps v (secRun v ops) = some (s, secDict v) ∧ s.props = some (secDict v) ∧
    ∀ later : List SecOp, ((later.foldl (SecOp.run v) s).props) = some (secDict v) ∧ secA v (later.foldl (SecOp.run v) s) = some v.area ∧
      secIx v (later.foldl (SecOp.run v) s) = some (v.ixx + v.iyy) := by
  have hinv := secRun_inv v ops SecState.new (by simp [SecState.new])
  have key : ∃ s, getProps v (secRun v ops) = some (s, secDict v) ∧ s.props = some (secDict v) ∧ s.geo = true := by
    unfold getProps
    cases hp : (secRun v ops).props with
    | none => exact ⟨_, calcProps_eq v _, rfl, rfl⟩
    | some d =>
      obtain ⟨h1, h2⟩ := hinv d hp
      exact ⟨secRun v ops, by rw [h1], by rw [hp, h1], h2⟩
  obtain ⟨s, h1, h2, h3⟩ := key
  refine ⟨s, h1, h2, fun later => ?_⟩
  have stay : ∀ (l : List SecOp) (s : SecState K), s.props = some (secDict v) → s.geo = true →
      (l.foldl (SecOp.run v) s).props = some (secDict v) ∧ (l.foldl (SecOp.run v) s).geo = true := by
    intro l
    induction l with
    | nil => exact fun s a b => ⟨a, b⟩
    | cons o l ih =>
      intro s a b
      rw [List.foldl_cons]
      cases o with
      | geo => exact ih _ a rfl
      | warp => exact ih _ (by simp [SecOp.run, calcWarp, b, a]) (by simp [SecOp.run, calcWarp, b])
      | props => exact ih _ (by simp [SecOp.run, calcProps_eq]) (by simp [SecOp.run, calcProps_eq])
      | get => exact ih _ (by simp [SecOp.run, getProps, a]) (by simp [SecOp.run, getProps, a, b])
  obtain ⟨a, b⟩ := stay later s h2 h3
  exact ⟨a, by simp [secA, b], by simp [secIx, secIy, secIz, b]⟩

/-- **C117** (disagreement) `section_properties` is not the properties of the section until they were asked for in another way, even if
all of them were computed. -/
theorem C117_all_false (v : SecVals K) : (secRun v [.geo, .warp]).props = none ∧ (secRun v [.geo, .warp]).warp = true ∧
    secA v (secRun v [.geo, .warp]) = some v.area := ⟨rfl, rfl, rfl⟩

/-- **C117** (disagreement) the area of a new section is `None`; the sum of its moments raises. -/
theorem C117_new_false (v : SecVals K) : secA v (secRun v []) = none ∧ secIx v (secRun v []) = none := ⟨rfl, rfl⟩

/-- **C117** (disagreement) until the geometric properties were computed, all values are `None` however often those of warping are asked
for, and each of these calls raises. -/
theorem C117_unknown_false (v : SecVals K) (n : Nat) : let s := secRun v (List.replicate n .warp)
    secA v s = none ∧ secIy v s = none ∧ secIz v s = none ∧ secIx v s = none ∧ s.warp = false ∧ s.props = none ∧ calcWarp s = none := by
  have h : secRun v (List.replicate n .warp) = ⟨false, false, none⟩ := by
    induction n with
    | zero => rfl
    | succ n ih =>
      rw [List.replicate_succ, secRun, List.foldl_cons]
      exact ih
  rw [h]
  exact ⟨rfl, rfl, rfl, rfl, rfl, rfl, rfl⟩

end

/-- The values of a rectangle of 2 x 1, after two calls. -/
example : (getProps (⟨2, 1/6, 2/3⟩ : SecVals ℚ) (secRun ⟨2, 1/6, 2/3⟩ [.warp, .geo])).map Prod.snd =
    some [("A", 2), ("Ix", 5/6), ("Iy", 1/6), ("Iz", 2/3)] := by decide +kernel

/-- Two triangles that make a rectangle of 2 x 1: its area and its second moments. -/
example : SecContract [(⟨0, 0, 0⟩, ⟨2, 0, 0⟩, ⟨2, 1, 0⟩), (⟨0, 0, 0⟩, ⟨2, 1, 0⟩, ⟨0, 1, 0⟩)] ⟨2, 1/6, 2/3⟩ := by
  have hA : secArea [(⟨0, 0, 0⟩, ⟨2, 0, 0⟩, ⟨2, 1, 0⟩), (⟨0, 0, 0⟩, ⟨2, 1, 0⟩, ⟨0, 1, 0⟩)] = 2 := by
    unfold secArea
    rw [quad_one, secInt_quad]
    norm_num [secArea2, quadFn, mid]
  have hc : ∀ c, IsCentroid [(⟨0, 0, 0⟩, ⟨2, 0, 0⟩, ⟨2, 1, 0⟩), (⟨0, 0, 0⟩, ⟨2, 1, 0⟩, ⟨0, 1, 0⟩)] c → c.x = 1 ∧ c.y = 1/2 := by
    rintro c ⟨h1, h2⟩
    rw [hA, quad_x, secInt_quad] at h1
    rw [hA, quad_y, secInt_quad] at h2
    norm_num [secArea2, quadFn, mid] at h1 h2
    constructor <;> linarith
  refine ⟨by rw [hA]; norm_num, hA.symm, fun c h => ?_, fun c h => ?_⟩
  · rw [(hc c h).2, quad_yy, secInt_quad]
    norm_num [secArea2, quadFn, mid]
  · rw [(hc c h).1, quad_xx, secInt_quad]
    norm_num [secArea2, quadFn, mid]

end PM
