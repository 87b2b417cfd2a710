import Mathlib.Algebra.Order.Field.Basic
import Mathlib.Algebra.Order.Ring.Int
import Mathlib.Data.Int.Cast.Field
import Mathlib.Data.Int.Cast.Lemmas
import Mathlib.Algebra.Order.Ring.Cast
import Mathlib.Tactic.Ring
import Mathlib.Tactic.Linarith
import Mathlib.Tactic.LinearCombination
import Mathlib.Tactic.FieldSimp
import Mathlib.Tactic.NormNum
import Mathlib.Tactic.Positivity

/-!
# Geometry used in specifications

Points of space over an arbitrary (ordered) field, affine maps, convex hulls. Nothing in this file models
library code; it is the vocabulary in which geometric properties are stated.
-/

namespace PM

/-- A point or vector of space. -/
@[ext] structure V3 (K : Type) where
  x : K
  y : K
  z : K
deriving DecidableEq, Repr

namespace V3

variable {K : Type}

instance [Zero K] : Zero (V3 K) := ⟨⟨0, 0, 0⟩⟩
instance [Add K] : Add (V3 K) := ⟨fun a b => ⟨a.x + b.x, a.y + b.y, a.z + b.z⟩⟩
instance [Sub K] : Sub (V3 K) := ⟨fun a b => ⟨a.x - b.x, a.y - b.y, a.z - b.z⟩⟩
instance [Neg K] : Neg (V3 K) := ⟨fun a => ⟨-a.x, -a.y, -a.z⟩⟩
instance [Mul K] : SMul K (V3 K) := ⟨fun k a => ⟨k * a.x, k * a.y, k * a.z⟩⟩

@[simp] theorem zero_x [Zero K] : (0 : V3 K).x = 0 := rfl
@[simp] theorem zero_y [Zero K] : (0 : V3 K).y = 0 := rfl
@[simp] theorem zero_z [Zero K] : (0 : V3 K).z = 0 := rfl
@[simp] theorem add_x [Add K] (a b : V3 K) : (a + b).x = a.x + b.x := rfl
@[simp] theorem add_y [Add K] (a b : V3 K) : (a + b).y = a.y + b.y := rfl
@[simp] theorem add_z [Add K] (a b : V3 K) : (a + b).z = a.z + b.z := rfl
@[simp] theorem sub_x [Sub K] (a b : V3 K) : (a - b).x = a.x - b.x := rfl
@[simp] theorem sub_y [Sub K] (a b : V3 K) : (a - b).y = a.y - b.y := rfl
@[simp] theorem sub_z [Sub K] (a b : V3 K) : (a - b).z = a.z - b.z := rfl
@[simp] theorem neg_x [Neg K] (a : V3 K) : (-a).x = -a.x := rfl
@[simp] theorem neg_y [Neg K] (a : V3 K) : (-a).y = -a.y := rfl
@[simp] theorem neg_z [Neg K] (a : V3 K) : (-a).z = -a.z := rfl
@[simp] theorem smul_x [Mul K] (k : K) (a : V3 K) : (k • a).x = k * a.x := rfl
@[simp] theorem smul_y [Mul K] (k : K) (a : V3 K) : (k • a).y = k * a.y := rfl
@[simp] theorem smul_z [Mul K] (k : K) (a : V3 K) : (k • a).z = k * a.z := rfl

/-- Inner product. -/
def dot [Add K] [Mul K] (a b : V3 K) : K := a.x * b.x + a.y * b.y + a.z * b.z

/-- Cross product. -/
def cross [Sub K] [Mul K] (a b : V3 K) : V3 K :=
  ⟨a.y * b.z - a.z * b.y, a.z * b.x - a.x * b.z, a.x * b.y - a.y * b.x⟩

/-- Triple product, the determinant with rows `a b c`. -/
def det3 [Add K] [Sub K] [Mul K] (a b c : V3 K) : K :=
  a.x * (b.y * c.z - b.z * c.y) - a.y * (b.x * c.z - b.z * c.x) + a.z * (b.x * c.y - b.y * c.x)

/-- Six times the signed volume of a tetrahedron. -/
def vol6 [Add K] [Sub K] [Mul K] (p q r s : V3 K) : K := det3 (q - p) (r - p) (s - p)

/-- Integer points as points over `K`. -/
def cast [IntCast K] (v : V3 Int) : V3 K := ⟨(v.x : K), (v.y : K), (v.z : K)⟩

end V3

open V3

/-- An affine map of space, `ξ ↦ o + ξ.x a + ξ.y b + ξ.z c`. -/
structure Aff (K : Type) where
  o : V3 K
  a : V3 K
  b : V3 K
  c : V3 K

namespace Aff
variable {K : Type} [CommRing K]

def app (A : Aff K) (ξ : V3 K) : V3 K := A.o + (ξ.x • A.a + ξ.y • A.b + ξ.z • A.c)
def lin (A : Aff K) (ξ : V3 K) : V3 K := ξ.x • A.a + ξ.y • A.b + ξ.z • A.c
def det (A : Aff K) : K := det3 A.a A.b A.c

/-- composition, `A ∘ B` -/
def comp (A B : Aff K) : Aff K := ⟨A.app B.o, A.lin B.a, A.lin B.b, A.lin B.c⟩

theorem app_comp (A B : Aff K) (ξ : V3 K) : (A.comp B).app ξ = A.app (B.app ξ) := by
  ext <;> simp [comp, app, lin] <;> ring

theorem det_comp (A B : Aff K) : (A.comp B).det = A.det * B.det := by
  simp [comp, det, lin, det3]; ring

theorem det3_lin (A : Aff K) (u v w : V3 K) : det3 (A.lin u) (A.lin v) (A.lin w) = A.det * det3 u v w := by
  simp [det, lin, det3]; ring

theorem vol6_app (A : Aff K) (p q r s : V3 K) :
    vol6 (A.app p) (A.app q) (A.app r) (A.app s) = A.det * vol6 p q r s := by
  rw [vol6, vol6, ← det3_lin]
  congr 1 <;> (ext <;> simp [app, lin] <;> ring)

theorem app_injective {K : Type} [Field K] (A : Aff K) (h : A.det ≠ 0) {ξ η : V3 K} (e : A.app ξ = A.app η) :
    ξ = η := by
  have ex := congrArg V3.x e
  have ey := congrArg V3.y e
  have ez := congrArg V3.z e
  simp only [app, add_x, add_y, add_z, smul_x, smul_y, smul_z] at ex ey ez
  have key : ∀ u v w : K, u * A.a.x + v * A.b.x + w * A.c.x = 0 → u * A.a.y + v * A.b.y + w * A.c.y = 0 →
      u * A.a.z + v * A.b.z + w * A.c.z = 0 → u = 0 ∧ v = 0 ∧ w = 0 := by
    intro u v w h1 h2 h3
    simp only [det, det3] at h
    refine ⟨?_, ?_, ?_⟩ <;> refine (mul_eq_zero.1 ?_).resolve_right h
    · linear_combination (A.b.y * A.c.z - A.b.z * A.c.y) * h1 + (A.b.z * A.c.x - A.b.x * A.c.z) * h2 +
        (A.b.x * A.c.y - A.b.y * A.c.x) * h3
    · linear_combination (A.c.y * A.a.z - A.c.z * A.a.y) * h1 + (A.c.z * A.a.x - A.c.x * A.a.z) * h2 +
        (A.c.x * A.a.y - A.c.y * A.a.x) * h3
    · linear_combination (A.a.y * A.b.z - A.a.z * A.b.y) * h1 + (A.a.z * A.b.x - A.a.x * A.b.z) * h2 +
        (A.a.x * A.b.y - A.a.y * A.b.x) * h3
  obtain ⟨h1, h2, h3⟩ := key (ξ.x - η.x) (ξ.y - η.y) (ξ.z - η.z) (by linear_combination ex)
    (by linear_combination ey) (by linear_combination ez)
  ext
  · exact sub_eq_zero.1 h1
  · exact sub_eq_zero.1 h2
  · exact sub_eq_zero.1 h3

/-- The identity map. -/
def one : Aff K := ⟨⟨0, 0, 0⟩, ⟨1, 0, 0⟩, ⟨0, 1, 0⟩, ⟨0, 0, 1⟩⟩

theorem one_app (ξ : V3 K) : (one : Aff K).app ξ = ξ := by ext <;> simp [one, app]

end Aff

/-! ## convex hulls -/

section Hull
set_option linter.unusedSectionVars false

variable {K : Type} [Field K] [LinearOrder K] [IsStrictOrderedRing K]

/-- `Σ w_i p_i`. -/
def lincomb : List K → List (V3 K) → V3 K
  | w :: ws, p :: ps => w • p + lincomb ws ps
  | _, _ => 0

/-- `p` is a convex combination of the points. -/
def Hull (pts : List (V3 K)) (p : V3 K) : Prop :=
  ∃ w : List K, w.length = pts.length ∧ (∀ a ∈ w, 0 ≤ a) ∧ w.sum = 1 ∧ lincomb w pts = p

/-- `p` is a convex combination with positive weights, i.e. in the (relative) interior of the hull. -/
def OpenHull (pts : List (V3 K)) (p : V3 K) : Prop :=
  ∃ w : List K, w.length = pts.length ∧ (∀ a ∈ w, 0 < a) ∧ w.sum = 1 ∧ lincomb w pts = p

omit [LinearOrder K] [IsStrictOrderedRing K] in
theorem lincomb_app (A : Aff K) : ∀ (w : List K) (pts : List (V3 K)), w.length = pts.length →
    lincomb w (pts.map A.app) = w.sum • A.o + A.lin (lincomb w pts)
  | [], [], _ => by ext <;> simp [lincomb, Aff.lin]
  | w :: ws, p :: ps, h => by
    simp only [lincomb, List.map_cons, List.sum_cons]
    rw [lincomb_app A ws ps (by simpa using h)]
    ext <;> simp [Aff.app, Aff.lin] <;> ring

omit [LinearOrder K] [IsStrictOrderedRing K] in
theorem lincomb_app_one (A : Aff K) {w : List K} {pts : List (V3 K)} (h : w.length = pts.length)
    (hs : w.sum = 1) : lincomb w (pts.map A.app) = A.app (lincomb w pts) := by
  rw [lincomb_app A w pts h, hs]
  ext <;> simp [Aff.app, Aff.lin]

theorem hull_map_of (A : Aff K) {pts : List (V3 K)} {p : V3 K} (h : Hull pts p) :
    Hull (pts.map A.app) (A.app p) := by
  obtain ⟨w, hl, h0, h1, rfl⟩ := h
  exact ⟨w, by simpa using hl, h0, h1, lincomb_app_one A hl h1⟩

theorem exists_of_hull_map (A : Aff K) {pts : List (V3 K)} {q : V3 K} (h : Hull (pts.map A.app) q) :
    ∃ p, q = A.app p ∧ Hull pts p := by
  obtain ⟨w, hl, h0, h1, rfl⟩ := h
  have hl' : w.length = pts.length := by simpa using hl
  exact ⟨_, lincomb_app_one A hl' h1, w, hl', h0, h1, rfl⟩

theorem exists_of_openHull_map (A : Aff K) {pts : List (V3 K)} {q : V3 K} (h : OpenHull (pts.map A.app) q) :
    ∃ p, q = A.app p ∧ OpenHull pts p := by
  obtain ⟨w, hl, h0, h1, rfl⟩ := h
  have hl' : w.length = pts.length := by simpa using hl
  exact ⟨_, lincomb_app_one A hl' h1, w, hl', h0, h1, rfl⟩

/-- An affine functional with integer coefficients, `f.1 · p + f.2`. -/
def evalF (f : V3 Int × Int) (p : V3 K) : K := (f.1.x : K) * p.x + f.1.y * p.y + f.1.z * p.z + f.2

theorem evalF_lincomb (f : V3 Int × Int) : ∀ (w : List K) (pts : List (V3 K)), w.length = pts.length →
    evalF f (lincomb w pts) - f.2 =
      ((w.zip pts).map fun x => x.1 * (evalF f x.2)).sum - w.sum * f.2
  | [], [], _ => by simp [lincomb, evalF]
  | w :: ws, p :: ps, h => by
    have ih := evalF_lincomb f ws ps (by simpa using h)
    simp only [lincomb, List.zip_cons_cons, List.map_cons, List.sum_cons]
    simp only [evalF, add_x, add_y, add_z, smul_x, smul_y, smul_z] at ih ⊢
    linear_combination ih

theorem evalF_combo (f : V3 Int × Int) {w : List K} {pts : List (V3 K)} (h : w.length = pts.length)
    (hs : w.sum = 1) :
    evalF f (lincomb w pts) = ((w.zip pts).map fun x => x.1 * (evalF f x.2)).sum := by
  have := evalF_lincomb f w pts h
  rw [hs] at this
  linear_combination this

theorem evalF_nonneg_of_hull {f : V3 Int × Int} {pts : List (V3 K)} {p : V3 K} (h : Hull pts p)
    (hf : ∀ q ∈ pts, 0 ≤ evalF f q) : 0 ≤ evalF f p := by
  obtain ⟨w, hl, h0, h1, rfl⟩ := h
  rw [evalF_combo f hl h1]
  apply List.sum_nonneg
  intro a ha
  obtain ⟨x, hx, rfl⟩ := List.mem_map.1 ha
  have := List.of_mem_zip hx
  exact mul_nonneg (h0 _ this.1) (hf _ this.2)

theorem Hull.of_open {pts : List (V3 K)} {p : V3 K} (h : OpenHull pts p) : Hull pts p := by
  obtain ⟨w, hl, h0, h1, e⟩ := h
  exact ⟨w, hl, fun a ha => (h0 a ha).le, h1, e⟩

theorem evalF_neg_of_openHull {f : V3 Int × Int} {pts : List (V3 K)} {p : V3 K} (h : OpenHull pts p)
    (hf : ∀ q ∈ pts, evalF f q ≤ 0) (hn : ∃ q ∈ pts, evalF f q < 0) : evalF f p < 0 := by
  obtain ⟨w, hl, h0, h1, rfl⟩ := h
  rw [evalF_combo f hl h1]
  obtain ⟨q, hq, hqn⟩ := hn
  obtain ⟨i, hi, rfl⟩ := List.mem_iff_getElem.1 hq
  have hiw : i < w.length := by omega
  have key : ∀ (l : List (K × V3 K)), (∀ x ∈ l, 0 < x.1 ∧ evalF f x.2 ≤ 0) → (∃ x ∈ l, evalF f x.2 < 0) →
      (l.map fun x => x.1 * evalF f x.2).sum < 0 := by
    intro l hl hex
    have hnp : ∀ l : List (K × V3 K), (∀ x ∈ l, 0 < x.1 ∧ evalF f x.2 ≤ 0) →
        (l.map fun x => x.1 * evalF f x.2).sum ≤ 0 := by
      intro l hl
      induction l with
      | nil => simp
      | cons x l ih =>
        rw [List.map_cons, List.sum_cons]
        have h1 := ih fun y hy => hl y (List.mem_cons_of_mem _ hy)
        have h2 := mul_nonpos_of_nonneg_of_nonpos (hl x List.mem_cons_self).1.le (hl x List.mem_cons_self).2
        linarith
    obtain ⟨x, hx, hxn⟩ := hex
    obtain ⟨l1, l2, rfl⟩ := List.append_of_mem hx
    rw [List.map_append, List.sum_append, List.map_cons, List.sum_cons]
    have h1 := hnp l1 fun y hy => hl y (by simp [hy])
    have h2 := hnp l2 fun y hy => hl y (by simp [hy])
    have h3 := mul_neg_of_pos_of_neg (hl x hx).1 hxn
    linarith
  apply key
  · intro x hx
    have := List.of_mem_zip hx
    exact ⟨h0 _ this.1, hf _ this.2⟩
  · refine ⟨(w[i], pts[i]), ?_, hqn⟩
    rw [← List.getElem_zip (h := by simp; omega)]
    exact List.getElem_mem _

/-- Two point sets separated by a functional have disjoint interiors. -/
theorem disjoint_of_functional {f : V3 Int × Int} {P Q : List (V3 K)} (hP : ∀ q ∈ P, evalF f q ≤ 0)
    (hn : ∃ q ∈ P, evalF f q < 0) (hQ : ∀ q ∈ Q, 0 ≤ evalF f q) (p : V3 K) (h1 : OpenHull P p)
    (h2 : OpenHull Q p) : False := by
  have := evalF_neg_of_openHull h1 hP hn
  have := evalF_nonneg_of_hull (Hull.of_open h2) hQ
  linarith

end Hull

end PM
