import Verif.Lcenter
import Verif.PropsFrameCentre

/-!
# C119: centres of the master cells
-/

namespace PM

/-! ## specification -/

/-- The point that an array stands for; missing coordinates are zero. -/
def CenterArr.point : CenterArr → Option (V3 ℚ)
  | .vec l => if 0 < l.length ∧ l.length ≤ 3 then some ⟨l.getD 0 0, l.getD 1 0, l.getD 2 0⟩ else none
  | .rows [l] => if 0 < l.length ∧ l.length ≤ 3 then some ⟨l.getD 0 0, l.getD 1 0, l.getD 2 0⟩ else none
  | .rows _ => none

/-- A rational point. -/
def castPt (K : Type) [Field K] (p : V3 ℚ) : V3 K := ⟨(p.x : K), (p.y : K), (p.z : K)⟩

/-- The point with local coordinates `x` of a cell with nodes `X`: the sum of the nodes with the shape functions as weights. -/
def shpPoint {K : Type} [Field K] (N : List PE) (x : V3 K) (X : List (V3 K)) : V3 K :=
  ⟨((N.zip X).map fun q => q.1.eval x * q.2.x).sum, ((N.zip X).map fun q => q.1.eval x * q.2.y).sum,
    ((N.zip X).map fun q => q.1.eval x * q.2.z).sum⟩

/-- The interior of the master cells. -/
def insideMaster : String → V3 ℚ → Prop
  | "L2", p | "L3", p => -1 < p.x ∧ p.x < 1
  | "T3", p | "T6", p => 0 < p.x ∧ 0 < p.y ∧ p.x + p.y < 1
  | "Q4", p | "Q9", p => -1 < p.x ∧ p.x < 1 ∧ -1 < p.y ∧ p.y < 1
  | "TET4", p | "TET10", p => 0 < p.x ∧ 0 < p.y ∧ 0 < p.z ∧ p.x + p.y + p.z < 1
  | "H8", p | "H27", p => -1 < p.x ∧ p.x < 1 ∧ -1 < p.y ∧ p.y < 1 ∧ -1 < p.z ∧ p.z < 1
  | "W6", p | "W18", p => 0 < p.x ∧ 0 < p.y ∧ p.x + p.y < 1 ∧ -1 < p.z ∧ p.z < 1
  | _, _ => False

instance (s : String) (p : V3 ℚ) : Decidable (insideMaster s p) := by
  unfold insideMaster
  split <;> infer_instance

/-- The check of `MeanPt`. -/
def meanCheck (l : List (V3 ℚ)) (c : V3 ℚ) : Bool :=
  decide (l ≠ []) && decide ((l.map V3.x).sum = l.length * c.x) && decide ((l.map V3.y).sum = l.length * c.y) &&
    decide ((l.map V3.z).sum = l.length * c.z)

theorem meanCheck_iff {l : List (V3 ℚ)} {c : V3 ℚ} : meanCheck l c = true ↔ MeanPt l c := by
  simp only [meanCheck, Bool.and_eq_true, decide_eq_true_eq]
  exact ⟨fun ⟨⟨⟨a, b⟩, c⟩, d⟩ => ⟨a, b, c, d⟩, fun h => ⟨⟨⟨h.ne, h.x⟩, h.y⟩, h.z⟩⟩

/-! ## the classes -/

/-- **C119** except for tetrahedra, `lcenter` is the mean of the local coordinates of the nodes, and inside the master cell. -/
theorem C119_centre_partial : ∀ k ∈ masterClasses, k.name ≠ "TET4" → k.name ≠ "TET10" →
    ∃ c, k.center.point = some c ∧ MeanPt (nodesQ k.lc) c ∧ insideMaster k.name c := by
  have check : masterClasses.all (fun k => decide (k.name = "TET4") || decide (k.name = "TET10") ||
      k.center.point.any fun c => meanCheck (nodesQ k.lc) c && decide (insideMaster k.name c)) = true := by decide +kernel
  intro k hk h1 h2
  have := List.all_eq_true.1 check k hk
  simp only [Bool.or_eq_true, decide_eq_true_eq, h1, h2, false_or] at this
  obtain ⟨c, hc, h⟩ := (Option.any_eq_true _ _).1 this
  rw [Bool.and_eq_true, meanCheck_iff, decide_eq_true_eq] at h
  exact ⟨c, hc, h⟩

/-- A coordinate of a point. -/
def coordNo (p : V3 Int) : Nat → Int
  | 0 => p.x
  | 1 => p.y
  | _ => p.z

/-- **C119** the dimension of a class is the number of coordinates that its nodes make use of, and `lcenter` has as many. -/
theorem C119_dim : ∀ k ∈ masterClasses,
    (∀ j, j < 3 → (j < k.dim ↔ ∃ p ∈ k.lc, coordNo p j ≠ 0)) ∧ k.dim ≤ 3 ∧
    (∀ l, k.center = .vec l → l.length = k.dim) ∧ ∀ l, k.center = .rows l → ∃ r, l = [r] ∧ r.length = k.dim := by
  have check : ∀ k ∈ masterClasses, (∀ j ∈ List.range 3, (j < k.dim ↔ ∃ p ∈ k.lc, coordNo p j ≠ 0)) ∧ k.dim ≤ 3 := by decide +kernel
  have check' : ∀ k ∈ masterClasses, (match k.center with
      | .vec l => decide (l.length = k.dim)
      | .rows [r] => decide (r.length = k.dim)
      | .rows _ => false) = true := by decide +kernel
  intro k hk
  refine ⟨fun j hj => (check k hk).1 j (List.mem_range.2 hj), (check k hk).2, fun l hl => ?_, fun l hl => ?_⟩
  · have := check' k hk
    rw [hl] at this
    simpa using this
  · have := check' k hk
    rw [hl] at this
    match l, this with
    | [r], h => exact ⟨r, rfl, by simpa using h⟩

/-- **C119** is false: the centres of triangles, tetrahedra and wedges are tables with one row, those of the other cells vectors. -/
theorem C119_shape_false : ∀ k ∈ masterClasses,
    (∃ l, k.center = .rows l) ↔ k.name ∈ ["T3", "T6", "TET4", "TET10", "W6", "W18"] := by
  have check : ∀ k ∈ masterClasses, (match k.center with | .rows _ => true | .vec _ => false) = true ↔
      k.name ∈ ["T3", "T6", "TET4", "TET10", "W6", "W18"] := by decide +kernel
  intro k hk
  rw [← check k hk]
  cases k.center with
  | vec l => simp
  | rows l => simp

/-- **C119** is false for both kinds of tetrahedra: `lcenter` is on a face. -/
theorem C119_centre_false : ∀ k ∈ [classTET4, classTET10], k ∈ masterClasses ∧
    ∃ c, k.center.point = some c ∧ ¬ MeanPt (nodesQ k.lc) c ∧ ¬ insideMaster k.name c ∧ c.x + c.y + c.z = 1 ∧
      MeanPt (nodesQ k.lc) ⟨1 / 4, 1 / 4, 1 / 4⟩ := by
  have check : [classTET4, classTET10].all (fun k => k.center.point.any fun c => !meanCheck (nodesQ k.lc) c &&
      !decide (insideMaster k.name c) && decide (c.x + c.y + c.z = 1) && meanCheck (nodesQ k.lc) ⟨1 / 4, 1 / 4, 1 / 4⟩) = true := by
    decide +kernel
  intro k hk
  have := List.all_eq_true.1 check k hk
  obtain ⟨c, hc, h⟩ := (Option.any_eq_true _ _).1 this
  simp only [Bool.and_eq_true, Bool.not_eq_true', decide_eq_false_iff_not, decide_eq_true_eq] at h
  obtain ⟨⟨⟨h1, h2⟩, h3⟩, h4⟩ := h
  refine ⟨?_, c, hc, fun hm => ?_, h2, h3, meanCheck_iff.1 h4⟩
  · simp only [List.mem_cons, List.not_mem_nil, or_false] at hk
    rcases hk with rfl | rfl <;> simp [masterClasses]
  · rw [meanCheck_iff.2 hm] at h1
    cases h1

/-! ## the defaults -/

theorem lcMean_some {l : List ℚ} (h : l ≠ []) : ∃ a, lcMean l = some a ∧ l.sum = l.length * a := by
  have hl : (l.length : ℚ) ≠ 0 := Nat.cast_ne_zero.2 (by simpa using h)
  refine ⟨l.sum / l.length, by simp [lcMean, h], ?_⟩
  field_simp

/-- **C119** the defaults are the means of the local coordinates, of cells in the plane and in space. -/
theorem C119_default {nodes : List (V3 ℚ)} (h : nodes ≠ []) :
    (∃ a c, lcenter3d nodes = some a ∧ a.point = some c ∧ MeanPt nodes c) ∧
    ((∀ p ∈ nodes, p.z = 0) → ∃ a c, lcenter2d nodes = some a ∧ a.point = some c ∧ MeanPt nodes c) := by
  obtain ⟨a, ha, ha'⟩ := lcMean_some (l := nodes.map V3.x) (by simpa using h)
  obtain ⟨b, hb, hb'⟩ := lcMean_some (l := nodes.map V3.y) (by simpa using h)
  obtain ⟨c, hc, hc'⟩ := lcMean_some (l := nodes.map V3.z) (by simpa using h)
  simp only [List.length_map] at ha' hb' hc'
  refine ⟨⟨.vec [a, b, c], ⟨a, b, c⟩, by simp [lcenter3d, ha, hb, hc], rfl, ⟨h, ha', hb', hc'⟩⟩, fun hz => ?_⟩
  refine ⟨.vec [a, b], ⟨a, b, 0⟩, by simp [lcenter2d, ha, hb], rfl, ⟨h, ha', hb', ?_⟩⟩
  rw [mul_zero]
  refine List.sum_eq_zero fun x hx => ?_
  obtain ⟨p, hp, rfl⟩ := List.mem_map.1 hx
  exact hz p hp

example : lcenter3d (nodesQ lcTET4) = some (.vec [1 / 4, 1 / 4, 1 / 4]) ∧ lcenter2d (nodesQ lcQ4) = some (.vec [0, 0]) := by decide +kernel

/-! ## the points of cells at the centre -/

section
variable {K : Type} [Field K] [CharZero K]

omit [CharZero K] in
theorem zip_sum_const {N : List PE} {X : List (V3 K)} {w : K} {x : V3 K} (hl : N.length = X.length)
    (hw : ∀ e ∈ N, e.eval x = w) (f : V3 K → K) : ((N.zip X).map fun q => q.1.eval x * f q.2).sum = w * (X.map f).sum := by
  induction N generalizing X with
  | nil => cases X with
    | nil => simp
    | cons _ _ => simp at hl
  | cons e N ih => cases X with
    | nil => simp at hl
    | cons y X =>
      simp only [List.zip_cons_cons, List.map_cons, List.sum_cons]
      rw [ih (by simpa using hl) fun e he => hw e (List.mem_cons_of_mem _ he), hw e List.mem_cons_self, mul_add]

theorem equal_weights {N : List PE} {c : V3 ℚ} {n : Nat} (hn : n ≠ 0) (h : N.all (fun e => decide (e.evalQ c = 1 / (n : ℚ))) = true)
    {X : List (V3 K)} (hN : N.length = n) (hX : X.length = n) : MeanPt X (shpPoint N (castPt K c) X) := by
  have hw : ∀ e ∈ N, e.eval (castPt K c) = 1 / (n : K) := by
    intro e he
    have := List.all_eq_true.1 h e he
    rw [decide_eq_true_eq] at this
    rw [castPt, PE.eval_cast, this]
    simp
  have hn' : (n : K) ≠ 0 := Nat.cast_ne_zero.2 hn
  refine ⟨by rintro rfl; simp at hX; omega, ?_, ?_, ?_⟩
  · rw [shpPoint]; simp only [zip_sum_const (hN.trans hX.symm) hw V3.x, hX]; field_simp
  · rw [shpPoint]; simp only [zip_sum_const (hN.trans hX.symm) hw V3.y, hX]; field_simp
  · rw [shpPoint]; simp only [zip_sum_const (hN.trans hX.symm) hw V3.z, hX]; field_simp

/-- **C119** for the linear cells of the plane, lines and hexahedra, of any form, the point at `lcenter` is the mean of the nodes. -/
theorem C119_linear_partial (X : List (V3 K)) :
    (X.length = 2 → ∃ c, classL2.center.point = some c ∧ MeanPt X (shpPoint Shp.shpL2 (castPt K c) X)) ∧
    (X.length = 3 → ∃ c, classT3.center.point = some c ∧ MeanPt X (shpPoint Shp.shpT3 (castPt K c) X)) ∧
    (X.length = 4 → ∃ c, classQ4.center.point = some c ∧ MeanPt X (shpPoint Shp.shpQ4 (castPt K c) X)) ∧
    (X.length = 8 → ∃ c, classH8.center.point = some c ∧ MeanPt X (shpPoint Shp.shpH8 (castPt K c) X)) :=
  ⟨fun h => ⟨⟨0, 0, 0⟩, rfl, equal_weights (n := 2) (by decide) (by decide +kernel) rfl h⟩,
   fun h => ⟨⟨1 / 3, 1 / 3, 0⟩, rfl, equal_weights (n := 3) (by decide) (by decide +kernel) rfl h⟩,
   fun h => ⟨⟨0, 0, 0⟩, rfl, equal_weights (n := 4) (by decide) (by decide +kernel) rfl h⟩,
   fun h => ⟨⟨0, 0, 0⟩, rfl, equal_weights (n := 8) (by decide) (by decide +kernel) rfl h⟩⟩

/-- **C119** is false for all tetrahedra, whatever their form: the point at `lcenter` is the mean of the corners of the face opposite to the
first node. -/
theorem C119_tet_false (a b c d : V3 K) : ∃ q, classTET4.center.point = some q ∧
    MeanPt [b, c, d] (shpPoint Shp.shpTET4 (castPt K q) [a, b, c, d]) := by
  refine ⟨⟨1 / 3, 1 / 3, 1 / 3⟩, rfl, ?_⟩
  have h3 : (3 : K) ≠ 0 := by norm_num
  have hq : Shp.shpTET4.map (fun e => e.eval (castPt K ⟨1 / 3, 1 / 3, 1 / 3⟩)) = [0, 1 / 3, 1 / 3, 1 / 3] := by
    have : Shp.shpTET4.map (fun e => e.evalQ ⟨1 / 3, 1 / 3, 1 / 3⟩) = [0, 1 / 3, 1 / 3, 1 / 3] := by decide +kernel
    have e : Shp.shpTET4.map (fun e => e.eval (castPt K ⟨1 / 3, 1 / 3, 1 / 3⟩)) =
        (Shp.shpTET4.map (fun e => e.evalQ ⟨1 / 3, 1 / 3, 1 / 3⟩)).map fun q : ℚ => (q : K) := by
      rw [List.map_map]
      exact List.map_congr_left fun e _ => PE.eval_cast _ e
    rw [e, this]
    simp
  simp only [Shp.shpTET4, List.map_cons, List.map_nil, List.cons.injEq, and_true] at hq
  obtain ⟨q0, q1, q2, q3⟩ := hq
  refine ⟨by simp, ?_, ?_, ?_⟩ <;>
    simp only [shpPoint, Shp.shpTET4, List.zip_cons_cons, List.zip_nil_right, List.map_cons, List.map_nil, List.sum_cons, List.sum_nil, q0, q1, q2,
      q3, List.length_cons, List.length_nil] <;> push_cast <;> field_simp <;> ring

theorem cast_sum_map (l : List (V3 Int)) (f : V3 Int → ℚ) : (l.map fun p => ((f p : ℚ) : K)).sum = (((l.map f).sum : ℚ) : K) := by
  induction l with
  | nil => simp
  | cons p l ih => simp only [List.map_cons, List.sum_cons, Rat.cast_add, ih]

/-- **C119** for every kind of cell whose shape functions interpolate: if the nodes are an affine image of those of the master cell, the
point at the mean of the local coordinates is the mean of the nodes. -/
theorem C119_affine {dim : Nat} {lc : List (V3 Int)} {N : List PE} (hN : Interpolates K dim lc N) {c : V3 ℚ} (hc : MeanPt (nodesQ lc) c)
    (o u v w : V3 K) (hv : dim < 2 → v = 0) (hw : dim < 3 → w = 0) {X : List (V3 K)}
    (hX : X = lc.map fun p => o + ((half p : V3 K).x • u + ((half p : V3 K).y • v + (half p : V3 K).z • w))) :
    MeanPt X (shpPoint N (castPt K c) X) := by
  have hne : lc ≠ [] := by rintro rfl; exact hc.ne rfl
  -- the means of the local coordinates
  have hsum : ∀ f : V3 Int → ℚ, ((lc.map fun p => ((f p : ℚ) : K)).sum) = (((lc.map f).sum : ℚ) : K) := cast_sum_map lc
  have hcast : (castPt K c) = ⟨(c.x : K), (c.y : K), (c.z : K)⟩ := rfl
  have hm : MeanPt (lc.map fun p => (half p : V3 K)) (castPt K c) := by
    have hl : (nodesQ lc).length = lc.length := by simp [nodesQ]
    refine ⟨by simpa using hne, ?_, ?_, ?_⟩
    · rw [List.map_map, show (V3.x ∘ fun p => (half p : V3 K)) = fun p : V3 Int => ((mkRat p.x 2 : ℚ) : K) from
        funext fun p => by rw [Function.comp_apply, half_cast], hsum, show (lc.map fun p => mkRat p.x 2) = (nodesQ lc).map V3.x by
          simp [nodesQ], hc.x, hl, List.length_map]
      push_cast; rfl
    · rw [List.map_map, show (V3.y ∘ fun p => (half p : V3 K)) = fun p : V3 Int => ((mkRat p.y 2 : ℚ) : K) from
        funext fun p => by rw [Function.comp_apply, half_cast], hsum, show (lc.map fun p => mkRat p.y 2) = (nodesQ lc).map V3.y by
          simp [nodesQ], hc.y, hl, List.length_map]
      push_cast; rfl
    · rw [List.map_map, show (V3.z ∘ fun p => (half p : V3 K)) = fun p : V3 Int => ((mkRat p.z 2 : ℚ) : K) from
        funext fun p => by rw [Function.comp_apply, half_cast], hsum, show (lc.map fun p => mkRat p.z 2) = (nodesQ lc).map V3.z by
          simp [nodesQ], hc.z, hl, List.length_map]
      push_cast; rfl
  -- the affine map as a frame
  let F : CFrame K := ⟨u, v, w, o⟩
  have hX' : X = (lc.map fun p => (half p : V3 K)).map F.place := by
    rw [hX, List.map_map]
    rfl
  have hM := hm.place F
  rw [← hX'] at hM
  have hpt : shpPoint N (castPt K c) X = F.place (castPt K c) := by
    have hz : ∀ f : V3 K → K, ((N.zip X).map fun q => q.1.eval (castPt K c) * f q.2).sum =
        ((N.zip lc).map fun q => q.1.eval (castPt K c) * f (o + ((half q.2 : V3 K).x • u + ((half q.2 : V3 K).y • v + (half q.2 : V3 K).z • w)))).sum := by
      intro f
      rw [hX, List.zip_map_right, List.map_map]
      rfl
    have hlin := fun (a b d e : K) (h1 : dim < 2 → d = 0) (h2 : dim < 3 → e = 0) => hN.linear a b d e (castPt K c) h1 h2
    unfold shpPoint
    rw [hz V3.x, hz V3.y, hz V3.z]
    have e1 := hlin o.x u.x v.x w.x (fun h => by rw [hv h]; rfl) (fun h => by rw [hw h]; rfl)
    have e2 := hlin o.y u.y v.y w.y (fun h => by rw [hv h]; rfl) (fun h => by rw [hw h]; rfl)
    have e3 := hlin o.z u.z v.z w.z (fun h => by rw [hv h]; rfl) (fun h => by rw [hw h]; rfl)
    have c1 : ∀ (a b d e : K) (p : V3 K), linVal a b d e p = a + (p.x * b + (p.y * d + p.z * e)) := by
      intro a b d e p; simp only [linVal]; ring
    simp only [c1] at e1 e2 e3
    ext
    · simpa [CFrame.place, F] using e1
    · simpa [CFrame.place, F] using e2
    · simpa [CFrame.place, F] using e3
  rw [hpt]
  exact hM

/-- For example for biquadratic quadrilaterals in the plane, or in space. -/
example (o u v : V3 K) : ∃ c, classQ9.center.point = some c ∧ MeanPt (lcQ9.map fun p => o + ((half p : V3 K).x • u + ((half p : V3 K).y • v + (half p : V3 K).z • (0 : V3 K))))
    (shpPoint Shp.shpQ9 (castPt K c) (lcQ9.map fun p => o + ((half p : V3 K).x • u + ((half p : V3 K).y • v + (half p : V3 K).z • (0 : V3 K))))) := by
  obtain ⟨c, h1, h2, -⟩ := C119_centre_partial classQ9 (by simp [masterClasses]) (by decide) (by decide)
  exact ⟨c, h1, C119_affine (C34_Q9 K) h2 o u v 0 (fun h => absurd h (by decide)) (fun _ => rfl) rfl⟩

end

end PM
