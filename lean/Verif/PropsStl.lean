import Verif.Stl
import Verif.PropsInp
import Verif.TopoLemmas
import Mathlib.Tactic.LinearCombination
import Mathlib.Tactic.Positivity
import Mathlib.Tactic.FieldSimp

/-!
# C87: STL files and bounding boxes
-/

namespace PM

/-! ## specification -/

/-- A facet of a file: normal and corners. -/
structure Facet where
  n : V3 ℝ
  a : V3 ℝ
  b : V3 ℝ
  c : V3 ℝ

/-- Reading the facets of a file up to the closing line. -/
inductive Facets : List StlLine → List Facet → Prop
  | done : Facets [.endsolid] []
  | facet (f : Facet) (rest : List StlLine) (fs : List Facet) : Facets rest fs →
      Facets (.facet f.n :: .outer :: .vertex f.a :: .vertex f.b :: .vertex f.c :: .endloop :: .endfacet :: rest) (f :: fs)

/-- The file is a solid with the given facets. -/
inductive IsSolid : List StlLine → List Facet → Prop
  | mk (rest : List StlLine) (fs : List Facet) : Facets rest fs → IsSolid (.solid :: rest) fs

/-- The normal is a unit vector, perpendicular to the sides, to the side from which the corners run counter-clockwise. -/
structure NormalOK (f : Facet) : Prop where
  unit : V3.dot f.n f.n = 1
  perp_ab : V3.dot f.n (f.b - f.a) = 0
  perp_ac : V3.dot f.n (f.c - f.a) = 0
  hand : 0 < V3.det3 (f.b - f.a) (f.c - f.a) f.n

/-- The triangle with the corners is not degenerate. -/
def Proper (a b c : V3 ℝ) : Prop := V3.cross (b - a) (c - a) ≠ 0

/-! ## normals -/

theorem computeLength_pos {v : V3 ℝ} (h : v ≠ 0) : 0 < computeLength v := by
  have h2 : 0 < v.x * v.x + v.y * v.y + v.z * v.z := by
    rcases v with ⟨x, y, z⟩
    by_contra hn
    simp only at hn
    have hx : x = 0 := by nlinarith [mul_self_nonneg x, mul_self_nonneg y, mul_self_nonneg z]
    have hy : y = 0 := by nlinarith [mul_self_nonneg x, mul_self_nonneg y, mul_self_nonneg z]
    have hz : z = 0 := by nlinarith [mul_self_nonneg x, mul_self_nonneg y, mul_self_nonneg z]
    exact h (by ext <;> simp [hx, hy, hz])
  exact Real.sqrt_pos.2 h2

theorem computeLength_zero : computeLength 0 = 0 := by simp [computeLength]

theorem computeNormal_eq (a b c : V3 ℝ) :
    (Proper a b c → ∃ n, computeNormal a b c = some n ∧ NormalOK ⟨n, a, b, c⟩) ∧ (¬ Proper a b c → computeNormal a b c = none) := by
  have hcr : V3.cross (b - a) (c - a) = ⟨(b.y - a.y) * (c.z - a.z) - (b.z - a.z) * (c.y - a.y),
      (b.z - a.z) * (c.x - a.x) - (b.x - a.x) * (c.z - a.z), (b.x - a.x) * (c.y - a.y) - (b.y - a.y) * (c.x - a.x)⟩ := by
    ext <;> simp [V3.cross]
  constructor
  · intro h
    rw [Proper, hcr] at h
    have hl := computeLength_pos h
    refine ⟨_, if_neg hl.ne', ?_⟩
    set l := computeLength _ with hldef
    have hsq := Real.mul_self_sqrt (show 0 ≤ ((b.y - a.y) * (c.z - a.z) - (b.z - a.z) * (c.y - a.y)) *
        ((b.y - a.y) * (c.z - a.z) - (b.z - a.z) * (c.y - a.y)) +
      ((b.z - a.z) * (c.x - a.x) - (b.x - a.x) * (c.z - a.z)) * ((b.z - a.z) * (c.x - a.x) - (b.x - a.x) * (c.z - a.z)) +
      ((b.x - a.x) * (c.y - a.y) - (b.y - a.y) * (c.x - a.x)) * ((b.x - a.x) * (c.y - a.y) - (b.y - a.y) * (c.x - a.x)) from
      add_nonneg (add_nonneg (mul_self_nonneg _) (mul_self_nonneg _)) (mul_self_nonneg _))
    have hll : l * l = ((b.y - a.y) * (c.z - a.z) - (b.z - a.z) * (c.y - a.y)) *
        ((b.y - a.y) * (c.z - a.z) - (b.z - a.z) * (c.y - a.y)) +
      ((b.z - a.z) * (c.x - a.x) - (b.x - a.x) * (c.z - a.z)) * ((b.z - a.z) * (c.x - a.x) - (b.x - a.x) * (c.z - a.z)) +
      ((b.x - a.x) * (c.y - a.y) - (b.y - a.y) * (c.x - a.x)) * ((b.x - a.x) * (c.y - a.y) - (b.y - a.y) * (c.x - a.x)) := hsq
    clear_value l
    have hne := hl.ne'
    refine ⟨?_, ?_, ?_, ?_⟩
    · simp only [V3.dot]
      field_simp
      linarith
    · simp only [V3.dot, V3.sub_x, V3.sub_y, V3.sub_z]
      field_simp
      ring
    · simp only [V3.dot, V3.sub_x, V3.sub_y, V3.sub_z]
      field_simp
      ring
    · have : V3.det3 (b - a) (c - a) (⟨((b.y - a.y) * (c.z - a.z) - (b.z - a.z) * (c.y - a.y)) / l,
          ((b.z - a.z) * (c.x - a.x) - (b.x - a.x) * (c.z - a.z)) / l,
          ((b.x - a.x) * (c.y - a.y) - (b.y - a.y) * (c.x - a.x)) / l⟩ : V3 ℝ) = l := by
        simp only [V3.det3, V3.sub_x, V3.sub_y, V3.sub_z]
        field_simp
        linear_combination -hll
      rw [this]
      exact hl
  · intro h
    rw [Proper, not_not, hcr] at h
    have e : computeLength ⟨(b.y - a.y) * (c.z - a.z) - (b.z - a.z) * (c.y - a.y),
      (b.z - a.z) * (c.x - a.x) - (b.x - a.x) * (c.z - a.z), (b.x - a.x) * (c.y - a.y) - (b.y - a.y) * (c.x - a.x)⟩ = 0 := by
      rw [h, computeLength_zero]
    exact if_pos e

/-- **C87** (normals): a normal is found for every triangle that is not degenerate, and it is the right one. -/
theorem C87_normal (a b c : V3 ℝ) (h : Proper a b c) :
    ∃ n, computeNormal a b c = some n ∧ NormalOK ⟨n, a, b, c⟩ := (computeNormal_eq a b c).1 h

/-- **C87** (flipped): with two corners exchanged the normal is the opposite one. -/
theorem C87_flip (a b c : V3 ℝ) (n m : V3 ℝ) (hn : computeNormal a b c = some n) (hm : computeNormal a c b = some m) :
    m.x = -n.x ∧ m.y = -n.y ∧ m.z = -n.z := by
  unfold computeNormal at hn hm
  simp only [Option.ite_none_left_eq_some, Option.some.injEq] at hn hm
  obtain ⟨-, rfl⟩ := hn
  obtain ⟨-, rfl⟩ := hm
  have e : ∀ u v w x y z : ℝ, x = -u → y = -v → z = -w → computeLength ⟨x, y, z⟩ = computeLength ⟨u, v, w⟩ := by
    intro u v w x y z hx hy hz
    simp [computeLength, hx, hy, hz]
  rw [e _ _ _ _ _ _ (show (c.y - a.y) * (b.z - a.z) - (c.z - a.z) * (b.y - a.y) =
      -((b.y - a.y) * (c.z - a.z) - (b.z - a.z) * (c.y - a.y)) by ring)
    (show (c.z - a.z) * (b.x - a.x) - (c.x - a.x) * (b.z - a.z) = -((b.z - a.z) * (c.x - a.x) - (b.x - a.x) * (c.z - a.z)) by ring)
    (show (c.x - a.x) * (b.y - a.y) - (c.y - a.y) * (b.x - a.x) = -((b.x - a.x) * (c.y - a.y) - (b.y - a.y) * (c.x - a.x)) by ring)]
  refine ⟨?_, ?_, ?_⟩ <;> · simp only; rw [← neg_div]; congr 1; ring

/-! ## files -/

/-- Vertex `i` of the list has coordinates `p`; the numbers start at 0 and are not negative. -/
def VertexAt {K : Type} (verts : List (V3 K)) (i : Int) (p : V3 K) : Prop := ∃ k : Nat, i = k ∧ verts[k]? = some p

theorem pyGet_vertexAt {K : Type} {verts : List (V3 K)} {i : Int} {p : V3 K} (h : VertexAt verts i p) : pyGet verts i = some p := by
  obtain ⟨k, rfl, hk⟩ := h
  simp [pyGet, hk]

theorem VertexAt.unique {K : Type} {verts : List (V3 K)} {i : Int} {p q : V3 K} (h : VertexAt verts i p) (h' : VertexAt verts i q) :
    p = q := by
  have := pyGet_vertexAt h
  rw [pyGet_vertexAt h'] at this
  simpa using this.symm

/-- The triangle refers to three vertices that exist and is not degenerate. -/
def TriOK (verts : List (V3 ℝ)) (t : Tri3) : Prop :=
  ∃ a b c, VertexAt verts t.1 a ∧ VertexAt verts t.2.1 b ∧ VertexAt verts t.2.2 c ∧ Proper a b c

/-- A facet shows a triangle: the corners in order, and the normal. -/
def Shows (verts : List (V3 ℝ)) (t : Tri3) (f : Facet) : Prop :=
  VertexAt verts t.1 f.a ∧ VertexAt verts t.2.1 f.b ∧ VertexAt verts t.2.2 f.c ∧ NormalOK f

/-- **C87** (files): the file is a solid with one facet per triangle, in order. -/
theorem C87_file (verts : List (V3 ℝ)) (tris : List Tri3) (h : ∀ t ∈ tris, TriOK verts t) :
    ∃ lines fs, writeStl verts tris = some lines ∧ IsSolid lines fs ∧ List.Forall₂ (Shows verts) tris fs := by
  suffices hs : ∃ ls fs, tris.mapM (stlTriangle verts) = some ls ∧ Facets (ls.flatten ++ [.endsolid]) fs ∧
      List.Forall₂ (Shows verts) tris fs by
    obtain ⟨ls, fs, h1, h2, h3⟩ := hs
    exact ⟨_, fs, by simp [writeStl, h1], .mk _ _ h2, h3⟩
  induction tris with
  | nil => exact ⟨[], [], rfl, .done, .nil⟩
  | cons t tris ih =>
    obtain ⟨ls, fs, h1, h2, h3⟩ := ih fun x hx => h x (List.mem_cons_of_mem _ hx)
    obtain ⟨a, b, c, ha, hb, hc, hp⟩ := h t List.mem_cons_self
    obtain ⟨n, hn, hok⟩ := C87_normal a b c hp
    refine ⟨[.facet n, .outer, .vertex a, .vertex b, .vertex c, .endloop, .endfacet] :: ls, ⟨n, a, b, c⟩ :: fs, ?_, ?_, .cons ⟨ha, hb, hc, hok⟩ h3⟩
    · have e : stlTriangle verts t = some [.facet n, .outer, .vertex a, .vertex b, .vertex c, .endloop, .endfacet] := by
        simp [stlTriangle, pyGet_vertexAt ha, pyGet_vertexAt hb, pyGet_vertexAt hc, hn]
      rw [List.mapM_cons, h1, e]
      rfl
    · exact Facets.facet ⟨n, a, b, c⟩ _ _ h2

/-- The facets of a file are unique, so `C87_file` speaks about everything a reader can find. -/
theorem Facets.unique {lines : List StlLine} {fs gs : List Facet} (h : Facets lines fs) (h' : Facets lines gs) : fs = gs := by
  induction h generalizing gs with
  | done => cases h'; rfl
  | facet f rest fs _ ih =>
    generalize hl : StlLine.facet f.n :: .outer :: .vertex f.a :: .vertex f.b :: .vertex f.c :: .endloop :: .endfacet :: rest = lines at h'
    cases h' with
    | done => simp at hl
    | facet g rest' gs hg =>
      obtain ⟨n, a, b, c⟩ := f
      obtain ⟨n', a', b', c'⟩ := g
      simp only [List.cons.injEq, StlLine.facet.injEq, StlLine.vertex.injEq, true_and] at hl
      obtain ⟨rfl, rfl, rfl, rfl, rfl⟩ := hl
      rw [ih hg]

/-- A case: the faces of a tetrahedron. -/
example : ∀ t ∈ ([(0, 2, 1), (0, 1, 3)] : List Tri3), TriOK [⟨0, 0, 0⟩, ⟨1, 0, 0⟩, ⟨0, 1, 0⟩, ⟨0, 0, 1⟩] t := by
  intro t ht
  simp only [List.mem_cons, List.not_mem_nil, or_false] at ht
  rcases ht with rfl | rfl
  · refine ⟨_, _, _, ⟨0, rfl, rfl⟩, ⟨2, rfl, rfl⟩, ⟨1, rfl, rfl⟩, ?_⟩
    intro h
    have := congrArg V3.z h
    simp [V3.cross] at this
  · refine ⟨_, _, _, ⟨0, rfl, rfl⟩, ⟨1, rfl, rfl⟩, ⟨3, rfl, rfl⟩, ?_⟩
    intro h
    have := congrArg V3.y h
    simp [V3.cross] at this

/-- **C87** is false for every mesh with a degenerate triangle: no file is completed. -/
theorem C87_degenerate_false (verts : List (V3 ℝ)) (tris : List Tri3) (t : Tri3) (ht : t ∈ tris) (a b c : V3 ℝ)
    (ha : VertexAt verts t.1 a) (hb : VertexAt verts t.2.1 b) (hc : VertexAt verts t.2.2 c) (h : ¬ Proper a b c) :
    writeStl verts tris = none := by
  have : stlTriangle verts t = none := by
    simp [stlTriangle, pyGet_vertexAt ha, pyGet_vertexAt hb, pyGet_vertexAt hc, (computeNormal_eq a b c).2 h]
  simp [writeStl, mapM_none ht this]

/-- A case: three points on a line. -/
example : ¬ Proper ⟨0, 0, 0⟩ ⟨1, 2, 3⟩ ⟨2, 4, 6⟩ := by
  simp only [Proper, not_not]
  ext <;> simp [V3.cross] <;> norm_num

/-- **C87** is false for vertices that do not exist: the label 0 of a file (index -1) is taken for the last vertex. -/
theorem C87_label_false (verts : List (V3 ℝ)) (p : V3 ℝ) : pyGet (verts ++ [p]) (-1) = some p ∧ ¬ ∃ q, VertexAt (verts ++ [p]) (-1) q := by
  constructor
  · simp [pyGet]
  · rintro ⟨q, k, hk, -⟩
    omega

/-! ## boxes -/

section
variable {K : Type} [LinearOrder K]

/-- The set of points has this box: all points are inside, and every side is touched. -/
structure IsBox (S : V3 K → Prop) (b : Box K) : Prop where
  inside : ∀ p, S p → b.1.x ≤ p.x ∧ p.x ≤ b.2.x ∧ b.1.y ≤ p.y ∧ p.y ≤ b.2.y ∧ b.1.z ≤ p.z ∧ p.z ≤ b.2.z
  x0 : ∃ p, S p ∧ p.x = b.1.x
  x1 : ∃ p, S p ∧ p.x = b.2.x
  y0 : ∃ p, S p ∧ p.y = b.1.y
  y1 : ∃ p, S p ∧ p.y = b.2.y
  z0 : ∃ p, S p ∧ p.z = b.1.z
  z1 : ∃ p, S p ∧ p.z = b.2.z

/-- A vertex of a triangle of the list. -/
def UsedVertex (verts : List (V3 K)) (tris : List Tri3) (p : V3 K) : Prop :=
  ∃ t ∈ tris, VertexAt verts t.1 p ∨ VertexAt verts t.2.1 p ∨ VertexAt verts t.2.2 p

/-- All vertices of the triangles exist. -/
def VertsOK (verts : List (V3 K)) (tris : List Tri3) : Prop :=
  ∀ t ∈ tris, (∃ p, VertexAt verts t.1 p) ∧ (∃ p, VertexAt verts t.2.1 p) ∧ ∃ p, VertexAt verts t.2.2 p

theorem IsBox.union {S T : V3 K → Prop} {a b c : Box K} (ha : IsBox S a) (hb : IsBox T b) (h : joinBox (some a) (some b) = some c) :
    IsBox (fun p => S p ∨ T p) c := by
  simp only [joinBox, Option.some.injEq] at h
  subst h
  have mn : ∀ (f : V3 K → K) (u v : K), (∃ p, S p ∧ f p = u) → (∃ p, T p ∧ f p = v) → ∃ p, (S p ∨ T p) ∧ f p = min u v := by
    rintro f u v ⟨p, hp, rfl⟩ ⟨q, hq, rfl⟩
    rcases le_total (f p) (f q) with hl | hl
    · exact ⟨p, .inl hp, (min_eq_left hl).symm⟩
    · exact ⟨q, .inr hq, (min_eq_right hl).symm⟩
  have mx : ∀ (f : V3 K → K) (u v : K), (∃ p, S p ∧ f p = u) → (∃ p, T p ∧ f p = v) → ∃ p, (S p ∨ T p) ∧ f p = max u v := by
    rintro f u v ⟨p, hp, rfl⟩ ⟨q, hq, rfl⟩
    rcases le_total (f p) (f q) with hl | hl
    · exact ⟨q, .inr hq, (max_eq_right hl).symm⟩
    · exact ⟨p, .inl hp, (max_eq_left hl).symm⟩
  refine ⟨?_, mn _ _ _ ha.x0 hb.x0, mx _ _ _ ha.x1 hb.x1, mn _ _ _ ha.y0 hb.y0, mx _ _ _ ha.y1 hb.y1, mn _ _ _ ha.z0 hb.z0,
    mx _ _ _ ha.z1 hb.z1⟩
  rintro p (hp | hp)
  · obtain ⟨h1, h2, h3, h4, h5, h6⟩ := ha.inside p hp
    exact ⟨min_le_of_left_le h1, le_max_of_le_left h2, min_le_of_left_le h3, le_max_of_le_left h4, min_le_of_left_le h5,
      le_max_of_le_left h6⟩
  · obtain ⟨h1, h2, h3, h4, h5, h6⟩ := hb.inside p hp
    exact ⟨min_le_of_right_le h1, le_max_of_le_right h2, min_le_of_right_le h3, le_max_of_le_right h4, min_le_of_right_le h5,
      le_max_of_le_right h6⟩

theorem IsBox.congr {S T : V3 K → Prop} {b : Box K} (h : IsBox S b) (e : ∀ p, S p ↔ T p) : IsBox T b := by
  rw [show T = S from funext fun p => propext (e p).symm]
  exact h

theorem isBox_single (p : V3 K) : IsBox (fun q => q = p) (p, p) := by
  refine ⟨?_, ⟨p, rfl, rfl⟩, ⟨p, rfl, rfl⟩, ⟨p, rfl, rfl⟩, ⟨p, rfl, rfl⟩, ⟨p, rfl, rfl⟩, ⟨p, rfl, rfl⟩⟩
  rintro q rfl
  simp

theorem foldl_boxStep (ps : List (V3 K)) (b : Box K) (S : V3 K → Prop) (hb : IsBox S b) :
    ∃ c, ps.foldl boxStep (some b) = some c ∧ IsBox (fun p => S p ∨ p ∈ ps) c := by
  induction ps generalizing b S with
  | nil => exact ⟨b, rfl, hb.congr fun p => by simp⟩
  | cons q ps ih =>
    have hu := hb.union (isBox_single q) (c := _) rfl
    obtain ⟨c, h1, h2⟩ := ih _ _ hu
    exact ⟨c, h1, h2.congr fun p => by simp [or_assoc]⟩

omit [LinearOrder K] in
/-- The vertices that are used, in the order of the loop. -/
theorem used_points (verts : List (V3 K)) (tris : List Tri3) (h : VertsOK verts tris) :
    ∃ ps, (tris.flatMap fun t => [t.1, t.2.1, t.2.2]).mapM (pyGet verts) = some ps ∧ (∀ p, p ∈ ps ↔ UsedVertex verts tris p) ∧
      (tris ≠ [] → ps ≠ []) := by
  have hex : ∀ i ∈ tris.flatMap fun t => [t.1, t.2.1, t.2.2], ∃ p, VertexAt verts i p := by
    intro i hi
    obtain ⟨t, ht, hi⟩ := List.mem_flatMap.1 hi
    obtain ⟨h1, h2, h3⟩ := h t ht
    simp only [List.mem_cons, List.not_mem_nil, or_false] at hi
    rcases hi with rfl | rfl | rfl <;> assumption
  have hm : ∀ (l : List Int), (∀ i ∈ l, ∃ p, VertexAt verts i p) → ∃ ps, l.mapM (pyGet verts) = some ps ∧
      (∀ p, p ∈ ps ↔ ∃ i ∈ l, VertexAt verts i p) ∧ ps.length = l.length := by
    intro l hl
    induction l with
    | nil => exact ⟨[], rfl, by simp, rfl⟩
    | cons i l ih =>
      obtain ⟨ps, e, hps, hlen⟩ := ih fun j hj => hl j (List.mem_cons_of_mem _ hj)
      obtain ⟨q, hq⟩ := hl i List.mem_cons_self
      refine ⟨q :: ps, by rw [List.mapM_cons, e, pyGet_vertexAt hq]; rfl, ?_, by simp [hlen]⟩
      intro p
      simp only [List.mem_cons, hps, exists_eq_or_imp]
      refine or_congr ⟨fun e => e ▸ hq, fun hp => hp.unique hq⟩ Iff.rfl
  obtain ⟨ps, e, hps, hlen⟩ := hm _ hex
  refine ⟨ps, e, ?_, ?_⟩
  · intro p
    rw [hps]
    constructor
    · rintro ⟨i, hi, hp⟩
      obtain ⟨t, ht, hi⟩ := List.mem_flatMap.1 hi
      simp only [List.mem_cons, List.not_mem_nil, or_false] at hi
      refine ⟨t, ht, ?_⟩
      rcases hi with rfl | rfl | rfl
      · exact .inl hp
      · exact .inr (.inl hp)
      · exact .inr (.inr hp)
    · rintro ⟨t, ht, hp | hp | hp⟩
      · exact ⟨_, List.mem_flatMap.2 ⟨t, ht, by simp⟩, hp⟩
      · exact ⟨_, List.mem_flatMap.2 ⟨t, ht, by simp⟩, hp⟩
      · exact ⟨_, List.mem_flatMap.2 ⟨t, ht, by simp⟩, hp⟩
  · rintro hne rfl
    cases tris with
    | nil => exact hne rfl
    | cons t ts => simp at hlen

/-- **C87** (box of a mesh): the box of the vertices used by the triangles. -/
theorem C87_mesh_box (verts : List (V3 K)) (tris : List Tri3) (h : VertsOK verts tris) (hne : tris ≠ []) :
    ∃ b, meshBox verts tris = some (some b) ∧ IsBox (UsedVertex verts tris) b := by
  obtain ⟨ps, e, hps, hn⟩ := used_points verts tris h
  cases ps with
  | nil => exact absurd rfl (hn hne)
  | cons p ps =>
    obtain ⟨b, h1, h2⟩ := foldl_boxStep ps (p, p) _ (isBox_single p)
    refine ⟨b, ?_, h2.congr fun q => by rw [← hps]; simp⟩
    simp only [meshBox, e, Option.map_some, List.foldl_cons, boxStep, h1]

theorem foldlM_boxes (verts : List (V3 K)) (ms : List (List Tri3)) (hms : ∀ m ∈ ms, VertsOK verts m ∧ m ≠ [])
    (b : Box K) (S : V3 K → Prop) (hb : IsBox S b) :
    ∃ c, ms.foldlM (fun b m => (meshBox verts m).bind fun c => (joinBox b c).map some) (some b) = some (some c) ∧
      IsBox (fun p => S p ∨ ∃ m ∈ ms, UsedVertex verts m p) c := by
  induction ms generalizing b S with
  | nil => exact ⟨b, rfl, hb.congr fun p => by simp⟩
  | cons m ms ih =>
    obtain ⟨hv, hne⟩ := hms m List.mem_cons_self
    obtain ⟨c, hc, hbox⟩ := C87_mesh_box verts m hv hne
    obtain ⟨d, h1, h2⟩ := ih (fun x hx => hms x (List.mem_cons_of_mem _ hx)) _ _ (hb.union hbox rfl)
    refine ⟨d, ?_, h2.congr fun p => by simp [or_assoc]⟩
    rw [List.foldlM_cons, hc]
    exact h1

/-- **C87** (box of a file): the box of the vertices used by any of the meshes, if there are meshes and none is empty. -/
theorem C87_box (verts : List (V3 K)) (ms : List (List Tri3)) (h : ms ≠ []) (hms : ∀ m ∈ ms, VertsOK verts m ∧ m ≠ []) :
    ∃ b, bBox verts ms = some (some b) ∧ IsBox (fun p => ∃ m ∈ ms, UsedVertex verts m p) b := by
  match ms, h with
  | [m], _ =>
    obtain ⟨hv, hne⟩ := hms m (by simp)
    obtain ⟨b, h1, h2⟩ := C87_mesh_box verts m hv hne
    exact ⟨b, h1, h2.congr fun p => by simp⟩
  | m :: k :: ms, _ =>
    obtain ⟨hv, hne⟩ := hms m (by simp)
    obtain ⟨b, h1, h2⟩ := C87_mesh_box verts m hv hne
    obtain ⟨c, h3, h4⟩ := foldlM_boxes verts (k :: ms) (fun x hx => hms x (List.mem_cons_of_mem _ hx)) b _ h2
    refine ⟨c, ?_, h4.congr fun p => by simp⟩
    rw [bBox, h1]
    · exact h3
    · simp

/-- **C87** is false for files without tetrahedra, and for several meshes one of which is empty: there is an error, or no box. -/
theorem C87_empty_false (verts : List (V3 K)) (m : List Tri3) (hm : VertsOK verts m) :
    bBox verts [] = none ∧ bBox verts [[]] = some none ∧ bBox verts [m, []] = none ∧ bBox verts [[], m] = none := by
  have h0 : meshBox verts [] = some none := rfl
  obtain ⟨ps, e, -⟩ := used_points verts m hm
  have h1 : meshBox verts m = some (ps.foldl boxStep none) := by simp [meshBox, e]
  refine ⟨rfl, rfl, ?_, ?_⟩
  · rw [bBox, h1]
    · cases ps.foldl boxStep none <;> rfl
    · simp
  · rw [bBox, h0]
    · simp [h1, joinBox]
    · simp

end

/-- Cases: two triangles; the second vertex list entry is not used by the first mesh. -/
example : bBox ([⟨0, 5, 0⟩, ⟨9, 9, 9⟩, ⟨1, 2, 3⟩, ⟨-1, 4, 1⟩] : List (V3 ℤ)) [[(0, 2, 3)]] = some (some (⟨-1, 2, 0⟩, ⟨1, 5, 3⟩)) ∧
    bBox ([⟨0, 5, 0⟩, ⟨9, 9, 9⟩, ⟨1, 2, 3⟩, ⟨-1, 4, 1⟩] : List (V3 ℤ)) [[(0, 2, 3)], [(1, 2, 3)]] =
      some (some (⟨-1, 2, 0⟩, ⟨9, 9, 9⟩)) := by decide +kernel

/-! ## names of files -/

/-- The text after the last hyphen is unique. -/
theorem after_hyphen {a b c d : List Char} (hb : '-' ∉ b) (hd : '-' ∉ d) (h : a ++ '-' :: b = c ++ '-' :: d) : b = d := by
  have key : ∀ a b : List Char, '-' ∉ b → (a ++ '-' :: b).reverse.takeWhile (fun x => x != '-') = b.reverse := by
    intro a b hb
    rw [List.reverse_append, List.reverse_cons, List.append_assoc, List.takeWhile_append_of_pos]
    · simp
    · intro x hx
      have : x ∈ b := by simpa using hx
      simp only [bne_iff_ne, ne_eq]
      rintro rfl
      exact hb this
  have := key a b hb
  rw [h, key c d hd] at this
  simpa using this.symm

theorem hyphen_not_in_pyStr (n : Nat) : '-' ∉ pyStr n ++ ['.', 's', 't', 'l'] := by
  intro h
  rcases List.mem_append.1 h with h | h
  · exact absurd (Nat.isDigit_of_mem_toDigits (by decide) (by decide) h) (by decide)
  · revert h
    decide

theorem pyStr_inj {m n : Nat} (h : pyStr m = pyStr n) : m = n := by
  have := Nat.ofDigitChars_ten_toDigits (n := m)
  rw [show Nat.toDigits 10 m = Nat.toDigits 10 n from h, Nat.ofDigitChars_ten_toDigits] at this
  exact this.symm

/-- Every name of several is some text, a hyphen, the number of the mesh and the extension. -/
theorem stlNames_get (out : List Char) (sets : List (Option (List Char))) (h1 : sets.length ≠ 1) (i : Nat) (hi : i < sets.length) :
    ∃ a, (stlNames out sets)[i]? = some (a ++ '-' :: (pyStr (i + 1) ++ ['.', 's', 't', 'l'])) := by
  simp only [stlNames, if_neg h1, List.getElem?_map, List.getElem?_range hi, Option.map_some, Option.some.injEq]
  cases (materials sets)[i]? with
  | some m => exact ⟨(if isStl out then out.take (out.length - 4) else out) ++ ['-'] ++ m, by simp⟩
  | none => exact ⟨if isStl out then out.take (out.length - 4) else out, by simp⟩

/-- **C87** (names): one name for every mesh, and no two are the same, whatever the names of the sets. -/
theorem C87_names (out : List Char) (sets : List (Option (List Char))) :
    (stlNames out sets).length = sets.length ∧ (stlNames out sets).Nodup := by
  by_cases h1 : sets.length = 1
  · simp [stlNames, h1]
  · have hl : (stlNames out sets).length = sets.length := by simp [stlNames, if_neg h1]
    refine ⟨hl, ?_⟩
    rw [List.nodup_iff_injective_getElem]
    rintro ⟨i, hi⟩ ⟨j, hj⟩ hij
    simp only at hij
    obtain ⟨a, ha⟩ := stlNames_get out sets h1 i (hl ▸ hi)
    obtain ⟨b, hb⟩ := stlNames_get out sets h1 j (hl ▸ hj)
    rw [List.getElem?_eq_getElem hi, Option.some.injEq] at ha
    rw [List.getElem?_eq_getElem hj, Option.some.injEq, ← hij, ha] at hb
    have := after_hyphen (hyphen_not_in_pyStr _) (hyphen_not_in_pyStr _) hb
    have := pyStr_inj (List.append_cancel_right this)
    simp only [Fin.mk.injEq]
    omega

theorem isStl_append (a : List Char) : isStl (a ++ ['.', 's', 't', 'l']) = true := by
  simp [isStl]

/-- **C87** (extensions): `writeStlFile` accepts all names of several meshes, with any output name. -/
theorem C87_extension (out : List Char) (sets : List (Option (List Char))) (h1 : sets.length ≠ 1) (name : List Char)
    (hn : name ∈ stlNames out sets) : isStl name = true := by
  obtain ⟨i, hi, rfl⟩ := List.mem_iff_getElem.1 hn
  obtain ⟨a, ha⟩ := stlNames_get out sets h1 i (by rw [← (C87_names out sets).1]; exact hi)
  rw [List.getElem?_eq_getElem hi, Option.some.injEq] at ha
  rw [ha, show a ++ '-' :: (pyStr (i + 1) ++ ['.', 's', 't', 'l']) = (a ++ '-' :: pyStr (i + 1)) ++ ['.', 's', 't', 'l'] by simp]
  exact isStl_append _

theorem toLower_toNat (c : Char) : c.toLower.toNat = if 65 ≤ c.toNat ∧ c.toNat ≤ 90 then c.toNat + 32 else c.toNat := by
  unfold Char.toLower
  split
  · rename_i h
    have h65 : 65 ≤ c.toNat := h.1
    have h90 : c.toNat ≤ 90 := h.2
    rw [if_pos ⟨h65, h90⟩]
    show (c.val + 32).toNat = _
    rw [UInt32.toNat_add]
    show (c.toNat + 32) % _ = _
    omega
  · rename_i h
    rw [if_neg fun g => h ⟨g.1, g.2⟩]

theorem char_eq_iff (x y : Char) : x = y ↔ x.toNat = y.toNat := ⟨fun h => h ▸ rfl, fun h => Char.ext (UInt32.toNat.inj h)⟩

/-- **C87** (extensions): the names of STL files are those that end with `.stl`, in letters of any case. -/
theorem C87_isStl (name : List Char) : isStl name = true ↔
    ∃ pre, ∃ s ∈ ['s', 'S'], ∃ t ∈ ['t', 'T'], ∃ l ∈ ['l', 'L'], name = pre ++ ['.', s, t, l] := by
  have key : ∀ a s t l : Char, [a, s, t, l].map Char.toLower = ['.', 's', 't', 'l'] ↔
      a = '.' ∧ s ∈ ['s', 'S'] ∧ t ∈ ['t', 'T'] ∧ l ∈ ['l', 'L'] := by
    intro a s t l
    simp only [List.map_cons, List.map_nil, List.cons.injEq, and_true, List.mem_cons, List.not_mem_nil, or_false, char_eq_iff, toLower_toNat,
      show '.'.toNat = 46 from rfl, show 's'.toNat = 115 from rfl, show 'S'.toNat = 83 from rfl, show 't'.toNat = 116 from rfl,
      show 'T'.toNat = 84 from rfl, show 'l'.toNat = 108 from rfl, show 'L'.toNat = 76 from rfl]
    (repeat' split) <;> omega
  rw [isStl, beq_iff_eq]
  constructor
  · intro h
    have hl : (name.drop (name.length - 4)).length = 4 := by
      have := congrArg List.length h
      rwa [List.length_map] at this
    match hd : name.drop (name.length - 4), hl with
    | [a, s, t, l], _ =>
      rw [hd, key] at h
      obtain ⟨rfl, hs, ht, hl⟩ := h
      exact ⟨name.take (name.length - 4), s, hs, t, ht, l, hl, by rw [← hd, List.take_append_drop]⟩
  · rintro ⟨pre, s, hs, t, ht, l, hl, rfl⟩
    rw [show (pre ++ ['.', s, t, l]).length - 4 = pre.length by simp, List.drop_left]
    exact (key _ _ _ _).2 ⟨rfl, hs, ht, hl⟩

/-- A concrete case. -/
example : isStl "Part.STL".toList = true ∧ isStl "part.obj".toList = false ∧ isStl "stl".toList = false := by decide +kernel

/-- **C87** (sets): if all meshes name a set, every name carries the one of its own mesh. -/
theorem C87_sets (pre : List Char) (names : List (List Char)) (h1 : names.length ≠ 1) (i : Nat) (m : List Char)
    (hm : names[i]? = some m) :
    (stlNames (pre ++ ['.', 's', 't', 'l']) (names.map some))[i]? =
      some (pre ++ ['-'] ++ m ++ ['-'] ++ pyStr (i + 1) ++ ['.', 's', 't', 'l']) := by
  have hi : i < (names.map some).length := by
    rw [List.length_map]
    exact (List.getElem?_eq_some_iff.1 hm).1
  have hmat : materials (names.map some) = names := by simp [materials]
  have h1' : ¬ (names.map some).length = 1 := by simpa using h1
  simp only [stlNames, if_neg h1', List.getElem?_map, List.getElem?_range hi, Option.map_some, hmat, hm, isStl_append, if_true]
  simp

/-- **C87** is false if an earlier mesh names no set: the second mesh has the set `B`, its file has no set in its name, and the
file of the first mesh, which has none, carries `B`. -/
theorem C87_sets_false : stlNames "m.stl".toList [none, some "B".toList] = ["m-B-1.stl".toList, "m-2.stl".toList] := by
  decide +kernel

end PM
