import Verif.PropsTri
import Mathlib.Data.List.Rotate

/-!
# C33: orientation of polygons
-/

set_option linter.unusedSectionVars false

namespace PM

variable {K : Type} [Field K] [LinearOrder K]

/-! ## specification -/

/-- The sides of a closed polygon: each vertex with the next one, the last with the first. -/
def sides (pts : List (P2 K)) : List (P2 K × P2 K) := pts.zip (pts.rotate 1)

/-- Twice the signed area swept from the point `o`: the sum of the turns of the triangles on `o` and the sides. -/
def swept (o : P2 K) (pts : List (P2 K)) : K := ((sides pts).map fun s => turn o s.1 s.2).sum

/-- A vertex list moved by a vector. -/
def movePts (v : P2 K) (pts : List (P2 K)) : List (P2 K) := pts.map fun p => ⟨p.x + v.x, p.y + v.y⟩

/-! ## lemmas -/

omit [LinearOrder K] in
theorem foldl_add_eq {α : Type} (l : List α) (f : α → K) (a : K) :
    l.foldl (fun s i => s + f i) a = a + (l.map f).sum := by
  induction l generalizing a with
  | nil => simp
  | cons x l ih => rw [List.foldl_cons, ih, List.map_cons, List.sum_cons, add_assoc]

omit [LinearOrder K] in
theorem sum_map_sub' {α : Type} (l : List α) (f g : α → K) :
    (l.map fun x => f x - g x).sum = (l.map f).sum - (l.map g).sum := by
  induction l with
  | nil => simp
  | cons x l ih => simp only [List.map_cons, List.sum_cons, ih]; ring

omit [LinearOrder K] in
theorem sum_map_neg' {α : Type} (l : List α) (f : α → K) : (l.map fun x => -f x).sum = -(l.map f).sum := by
  induction l with
  | nil => simp
  | cons x l ih => simp only [List.map_cons, List.sum_cons, ih]; ring

omit [LinearOrder K] in
/-- The sum of the code is a sum over the sides. -/
theorem polyArea2_eq (pts : List (P2 K)) :
    polyArea2 pts = ((sides pts).map fun s => s.1.x * s.2.y - s.2.x * s.1.y).sum := by
  rw [polyArea2, foldl_add_eq, zero_add]
  congr 1
  apply List.ext_getElem
  · simp [sides]
  · intro i h1 h2
    have hi : i < pts.length := by simpa using h1
    have hj : (i + 1) % pts.length < pts.length := Nat.mod_lt _ (by omega)
    simp [sides, List.getElem_rotate, List.getElem?_eq_getElem hi, List.getElem?_eq_getElem hj]

omit [LinearOrder K] in
theorem sum_fst_sides (pts : List (P2 K)) (f : P2 K → K) :
    ((sides pts).map fun s => f s.1).sum = ((sides pts).map fun s => f s.2).sum := by
  have h1 : ((sides pts).map fun s => f s.1) = pts.map f := by
    rw [show (fun s : P2 K × P2 K => f s.1) = f ∘ Prod.fst from rfl, ← List.map_map, sides,
      List.map_fst_zip (by simp)]
  have h2 : ((sides pts).map fun s => f s.2) = (pts.rotate 1).map f := by
    rw [show (fun s : P2 K × P2 K => f s.2) = f ∘ Prod.snd from rfl, ← List.map_map, sides,
      List.map_snd_zip (by simp)]
  rw [h1, h2]
  exact (((List.rotate_perm pts 1).map f).sum_eq).symm

/-- The area swept does not depend on the point it is swept from. -/
theorem swept_eq (o : P2 K) (pts : List (P2 K)) : swept o pts = polyArea2 pts := by
  rw [polyArea2_eq, swept]
  have h : ∀ s : P2 K × P2 K, turn o s.1 s.2 = (s.1.x * s.2.y - s.2.x * s.1.y) +
      ((o.y * s.2.x - o.x * s.2.y) - (o.y * s.1.x - o.x * s.1.y)) := by
    intro s; simp only [turn]; ring
  rw [List.map_congr_left fun s _ => h s, List.sum_map_add,
    sum_map_sub' _ (fun s : P2 K × P2 K => o.y * s.2.x - o.x * s.2.y) (fun s : P2 K × P2 K => o.y * s.1.x - o.x * s.1.y),
    sum_fst_sides pts fun p => o.y * p.x - o.x * p.y, sub_self, add_zero]

theorem polyArea2_move (v : P2 K) (pts : List (P2 K)) : polyArea2 (movePts v pts) = polyArea2 pts := by
  rw [← swept_eq v, ← swept_eq ⟨0, 0⟩, swept, swept]
  have : sides (movePts v pts) = (sides pts).map fun s => (⟨s.1.x + v.x, s.1.y + v.y⟩, ⟨s.2.x + v.x, s.2.y + v.y⟩) := by
    rw [sides, movePts, ← List.map_rotate, List.zip_map]
    rfl
  rw [this, List.map_map]
  congr 1
  apply List.map_congr_left
  intro s _
  simp only [Function.comp, turn]; ring

omit [LinearOrder K] in
theorem polyArea2_rotate (k : Nat) (pts : List (P2 K)) : polyArea2 (pts.rotate k) = polyArea2 pts := by
  rw [polyArea2_eq, polyArea2_eq]
  have : sides (pts.rotate k) = (sides pts).rotate k := by
    rw [sides, sides, List.rotate_rotate, Nat.add_comm, ← List.rotate_rotate]
    exact (List.zipWith_rotate_distrib (f := Prod.mk) pts (pts.rotate 1) k (by simp)).symm
  rw [this]
  exact ((List.rotate_perm (sides pts) k).map _).sum_eq

omit [LinearOrder K] in
theorem polyArea2_reverse (pts : List (P2 K)) : polyArea2 pts.reverse = -polyArea2 pts := by
  rw [polyArea2_eq, polyArea2_eq]
  by_cases hn : pts = []
  · subst hn; simp [sides]
  have hpos : 1 ≤ pts.length := List.length_pos_of_ne_nil hn
  -- the sides of the reversed polygon are the reversed sides
  have h2 : (sides pts.reverse).Perm ((sides pts).map Prod.swap) := by
    have e : (sides pts).map Prod.swap = (pts.rotate 1).zip pts := by rw [sides, List.zip_swap]
    rw [e]
    have r1 : pts.reverse.rotate 1 = (pts.rotate (pts.length - 1)).reverse := by
      rw [List.rotate_reverse]
      by_cases h : pts.length = 1
      · rw [h]; simp
        rw [← h, List.rotate_length]
      · rw [Nat.mod_eq_of_lt (by omega)]
    have r2 : sides pts.reverse = (pts.zip (pts.rotate (pts.length - 1))).reverse := by
      rw [sides, r1]
      apply List.ext_getElem
      · simp
      · intro i h1 h2
        simp
    rw [r2]
    have r3 : (pts.rotate 1).zip pts = (pts.zip (pts.rotate (pts.length - 1))).rotate 1 := by
      have := List.zipWith_rotate_distrib (f := Prod.mk) pts (pts.rotate (pts.length - 1)) 1 (by simp)
      rw [List.rotate_rotate, Nat.sub_add_cancel hpos, List.rotate_length] at this
      exact this.symm
    rw [r3]
    exact (List.reverse_perm _).trans (List.rotate_perm _ _).symm
  rw [(h2.map _).sum_eq, List.map_map, ← sum_map_neg']
  congr 1
  apply List.map_congr_left
  intro s _
  simp

/-! ## the property -/

/-- **C33** the functions report the sign of the area swept from any point: negative is clockwise; never both, and
never none. -/
theorem C33_sign (o : P2 K) (pts : List (P2 K)) :
    (isCw pts = true ↔ swept o pts < 0) ∧ (isCcw pts = true ↔ 0 ≤ swept o pts) ∧ (isCw pts = !isCcw pts) := by
  rw [swept_eq]
  refine ⟨by simp [isCw], ?_, by simp [isCcw]⟩
  simp [isCcw, isCw]

omit [LinearOrder K] in
/-- **C33** the area of a triangle polygon is twice that of `area_tri`, so the polygon test and `area_tri` agree. -/
theorem C33_triangle (a b c : P2 K) : polyArea2 [a, b, c] = triArea2 ⟨a, b, c⟩ := by
  rw [polyArea2_eq]
  simp [sides, triArea2]
  ring

/-- **C33** cyclic shifts and translations change nothing. -/
theorem C33_invariant (pts : List (P2 K)) (k : Nat) (v : P2 K) :
    isCw (pts.rotate k) = isCw pts ∧ isCcw (pts.rotate k) = isCcw pts ∧
    isCw (movePts v pts) = isCw pts ∧ isCcw (movePts v pts) = isCcw pts := by
  simp only [isCcw, isCw, polyArea2_rotate, polyArea2_move, and_self]

variable [IsStrictOrderedRing K]

/-- **C33** reversing the order of the vertices of a polygon of non-zero area exchanges the answers. -/
theorem C33_reverse (pts : List (P2 K)) {o : P2 K} (h : swept o pts ≠ 0) :
    isCw pts.reverse = isCcw pts ∧ isCcw pts.reverse = isCw pts := by
  rw [swept_eq] at h
  have : decide (-polyArea2 pts < 0) = !decide (polyArea2 pts < 0) := by
    rcases lt_or_gt_of_ne h with h1 | h1
    · simp [h1, h1.le]
    · simp [h1, h1.le]
  simp only [isCcw, isCw, polyArea2_reverse, this, Bool.not_not, and_self]

/-- **C33** a polygon all of whose sides have the point `o` on their left (a convex polygon listed counterclockwise and
a point inside, for instance) is counterclockwise; with `o` on the right of all sides it is clockwise. -/
theorem C33_convex {pts : List (P2 K)} (hn : pts ≠ []) {o : P2 K} :
    ((∀ s ∈ sides pts, 0 < turn o s.1 s.2) → isCcw pts = true ∧ isCw pts = false) ∧
    ((∀ s ∈ sides pts, turn o s.1 s.2 < 0) → isCw pts = true ∧ isCcw pts = false) := by
  have hs : sides pts ≠ [] := by
    intro h
    have := congrArg List.length h
    simp [sides] at this
    exact hn this
  have key : ∀ (l : List (P2 K × P2 K)) (f : P2 K × P2 K → K), l ≠ [] → (∀ s ∈ l, 0 < f s) → 0 < (l.map f).sum := by
    intro l f hl hp
    induction l with
    | nil => exact absurd rfl hl
    | cons a l ih =>
      rw [List.map_cons, List.sum_cons]
      by_cases hl' : l = []
      · subst hl'; simpa using hp a List.mem_cons_self
      · exact add_pos (hp a List.mem_cons_self) (ih hl' fun s hs => hp s (List.mem_cons_of_mem _ hs))
  obtain ⟨c1, c2, c3⟩ := C33_sign o pts
  constructor
  · intro h
    have h0 : 0 < swept o pts := key _ _ hs h
    have := c2.2 h0.le
    rw [c3, this]; simp
  · intro h
    have h0 : 0 < ((sides pts).map fun s => -turn o s.1 s.2).sum :=
      key _ _ hs fun s hs => by have := h s hs; linarith
    have h1 : ((sides pts).map fun s => -turn o s.1 s.2).sum = -swept o pts := by
      rw [swept, sum_map_neg']
    have := c1.2 (by rw [h1] at h0; linarith)
    rw [c3] at this
    rw [c3, this]
    exact ⟨rfl, by simpa using this⟩

/-- A square, seen from its centre, and its reverse. -/
example : (∀ s ∈ sides squarePts, 0 < turn ⟨1/2, 1/2⟩ s.1 s.2) ∧ swept ⟨0, 0⟩ squarePts ≠ 0 ∧
    isCw squarePts.reverse = true := by decide +kernel

/-- **C33** without area (here: a path along a segment and back) the answer is "counterclockwise", and stays so when
the order is reversed. -/
theorem C33_degenerate_false :
    isCcw ([⟨0, 0⟩, ⟨1, 0⟩, ⟨2, 0⟩] : List (P2 ℚ)) = true ∧
    isCcw ([⟨0, 0⟩, ⟨1, 0⟩, ⟨2, 0⟩] : List (P2 ℚ)).reverse = true := by decide +kernel

end PM
