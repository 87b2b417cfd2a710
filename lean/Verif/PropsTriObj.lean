import Verif.TriObj
import Verif.PropsTriang
import Verif.PropsElevate
import Verif.PropsCollect

/-!
# C110: triangulation objects, edges of triangle meshes
-/

namespace PM

section
variable {K : Type}

/-! ## specification -/

/-- `q` holds the first two coordinates of the points `p`. -/
def PlaneOf (p q : List (List K)) : Prop :=
  q.length = p.length ∧ ∀ (i : Nat) (r : List K), p[i]? = some r → ∃ x y, r[0]? = some x ∧ r[1]? = some y ∧ q[i]? = some [x, y]

/-- The points have at least two coordinates. -/
def Plane2 (p : List (List K)) : Prop := ∀ r ∈ p, 2 ≤ r.length

/-- An object of the backend with the points `q` of the plane (for PyVista points in space) and the triangles `t`. -/
def IsObj (b : Backend) (p : List (List K)) (t : Topo) (o : TriObj K) : Prop :=
  match b with
  | .mpl => ∃ x y, o = .mpl x y t none ∧ PlaneOf p (stackXY x y) ∧ x.length = p.length ∧ y.length = p.length
  | .scipy => ∃ q, o = .scipy q t ∧ PlaneOf p q
  | .pv => o = .pv p t

/-! ## lemmas -/

theorem planeRows_some {p : List (List K)} (h : Plane2 p) : ∃ q, planeRows p = some q ∧ PlaneOf p q := by
  unfold planeRows
  obtain ⟨q, h1, h2, h3⟩ := mapM_exists (l := p) (P := fun _ (r : List K) (q : List K) => ∃ x y, r[0]? = some x ∧ r[1]? = some y ∧ q = [x, y])
    (f := fun (r : List K) => match r with
    | x :: y :: _ => some [x, y]
    | _ => none) (by
      intro k r hr
      match r, h r (List.mem_of_getElem? hr) with
      | x :: y :: l, _ => exact ⟨[x, y], rfl, x, y, rfl, rfl, rfl⟩)
  refine ⟨q, h1, h2, ?_⟩
  intro i r hr
  have hi : i < q.length := by rw [h2]; exact (List.getElem?_eq_some_iff.1 hr).1
  obtain ⟨x, y, e1, e2, e3⟩ := h3 i r _ hr (List.getElem?_eq_getElem hi)
  exact ⟨x, y, e1, e2, by rw [List.getElem?_eq_getElem hi, e3]⟩

theorem planeRows_none {p : List (List K)} {r : List K} (hr : r ∈ p) (h : r.length < 2) : planeRows p = none := by
  unfold planeRows
  apply mapM_none hr
  match r, h with
  | [], _ => rfl
  | [x], _ => rfl

theorem stack_of {p q : List (List K)} (h : PlaneOf p q) :
    stackXY (q.filterMap fun r => r[0]?) (q.filterMap fun r => r[1]?) = q ∧
      (q.filterMap fun r => r[0]?).length = p.length ∧ (q.filterMap fun r => r[1]?).length = p.length := by
  have hq : ∀ r ∈ q, ∃ x y, r = [x, y] := by
    intro r hr
    obtain ⟨i, hi⟩ := List.mem_iff_getElem?.1 hr
    have hl : i < p.length := by rw [← h.1]; exact (List.getElem?_eq_some_iff.1 hi).1
    obtain ⟨x, y, -, -, e⟩ := h.2 i _ (List.getElem?_eq_getElem hl)
    rw [hi] at e
    exact ⟨x, y, Option.some.inj e⟩
  rw [← h.1]
  clear h
  induction q with
  | nil => exact ⟨rfl, rfl, rfl⟩
  | cons r q ih =>
    obtain ⟨x, y, rfl⟩ := hq r List.mem_cons_self
    obtain ⟨h1, h2, h3⟩ := ih fun r hr => hq r (List.mem_cons_of_mem _ hr)
    have a0 : (([x, y] :: q).filterMap fun r => r[0]?) = x :: (q.filterMap fun r => r[0]?) := List.filterMap_cons_some (by rfl)
    have a1 : (([x, y] :: q).filterMap fun r => r[1]?) = y :: (q.filterMap fun r => r[1]?) := List.filterMap_cons_some (by rfl)
    rw [a0, a1]
    refine ⟨?_, by rw [List.length_cons, h2, List.length_cons], by rw [List.length_cons, h3, List.length_cons]⟩
    unfold stackXY at h1 ⊢
    rw [List.zipWith_cons_cons, h1]

theorem mplObj_some {p : List (List K)} (h : Plane2 p) (t : Topo) : ∃ o, mplObj p t = some o ∧ IsObj .mpl p t o := by
  obtain ⟨q, h1, h2⟩ := planeRows_some h
  obtain ⟨e1, e2, e3⟩ := stack_of h2
  exact ⟨_, by rw [mplObj, h1]; rfl, _, _, rfl, by rw [e1]; exact h2, e2, e3⟩

theorem PlaneOf.plane2 {p q : List (List K)} (h : PlaneOf p q) : Plane2 p ∧ ∀ r ∈ q, r.length = 2 := by
  constructor
  · intro r hr
    obtain ⟨i, hi⟩ := List.mem_iff_getElem?.1 hr
    obtain ⟨x, y, -, e, -⟩ := h.2 i r hi
    have := (List.getElem?_eq_some_iff.1 e).1
    omega
  · intro r hr
    obtain ⟨i, hi⟩ := List.mem_iff_getElem?.1 hr
    have hl : i < p.length := by rw [← h.1]; exact (List.getElem?_eq_some_iff.1 hi).1
    obtain ⟨x, y, -, -, e⟩ := h.2 i _ (List.getElem?_eq_getElem hl)
    rw [hi] at e
    rw [Option.some.inj e]
    rfl

theorem PlaneOf.unique {p q q' : List (List K)} (h : PlaneOf p q) (h' : PlaneOf p q') : q = q' := by
  apply List.ext_getElem? 
  intro i
  by_cases hi : i < p.length
  · obtain ⟨x, y, e1, e2, e3⟩ := h.2 i _ (List.getElem?_eq_getElem hi)
    obtain ⟨x', y', e1', e2', e3'⟩ := h'.2 i _ (List.getElem?_eq_getElem hi)
    rw [e1] at e1'
    rw [e2] at e2'
    rw [e3, e3', Option.some.inj e1', Option.some.inj e2']
  · rw [List.getElem?_eq_none (by rw [h.1]; omega), List.getElem?_eq_none (by rw [h'.1]; omega)]

theorem PlaneOf.self {p : List (List K)} (h : ∀ r ∈ p, r.length = 2) : PlaneOf p p := by
  refine ⟨rfl, fun i r hr => ?_⟩
  match r, h r (List.mem_of_getElem? hr) with
  | [x, y], _ => exact ⟨x, y, rfl, rfl, hr⟩

theorem PlaneOf.trans {p q r : List (List K)} (h : PlaneOf p q) (h' : PlaneOf q r) : PlaneOf p r := by
  have : q = r := (PlaneOf.self h.plane2.2).unique h'
  rw [← this]
  exact h

/-! ## C110: objects -/

/-- The triangles a backend makes of the points. -/
def Engines.Makes (E : Engines K) (b : Backend) (p : List (List K)) (t : Topo) : Prop :=
  match b with
  | .mpl => ∃ q, PlaneOf p q ∧ t = E.mpl q
  | .scipy => ∃ q, PlaneOf p q ∧ t = E.scipy q
  | .pv => t = E.pv p

/-- **C110** for points with two or three coordinates (three for PyVista) `triangulate` returns the points, the triangles of the
backend and an object of the backend with these points and triangles; the object is recognised, and `get_triobj_data` reads the
same triangles and the plane coordinates of the same points from it. -/
theorem C110_points (E : Engines K) (b : Backend) {p : List (List K)} (h : Plane2 p) (h3 : b = .pv → ∀ r ∈ p, r.length = 3) :
    ∃ t o, triangulatePts E b p none = some (p, t, o) ∧ E.Makes b p t ∧ IsObj b p t o ∧ isTriobj o = some true ∧
      ∃ q, triobjData E true o = some (q, t) ∧ PlaneOf p q := by
  obtain ⟨q, h1, h2⟩ := planeRows_some h
  cases b with
  | mpl =>
    obtain ⟨o, e1, e2⟩ := mplObj_some h (E.mpl q)
    refine ⟨E.mpl q, o, by simp [triangulatePts, h1, e1], ⟨q, h2, rfl⟩, e2, ?_⟩
    obtain ⟨x, y, rfl, e3, -⟩ := e2
    exact ⟨rfl, _, rfl, e3⟩
  | scipy => exact ⟨E.scipy q, .scipy q (E.scipy q), by simp [triangulatePts, h1], ⟨q, h2, rfl⟩, ⟨q, rfl, h2⟩, rfl, q, rfl, h2⟩
  | pv =>
    refine ⟨E.pv p, .pv p (E.pv p), ?_, rfl, rfl, rfl, q, by simp [triobjData, h1], h2⟩
    simp only [triangulatePts]
    rw [if_pos (by rw [List.all_eq_true]; intro r hr; simpa using h3 rfl r hr)]

/-- **C110** triangles can be given for the backend of matplotlib only; the object has these triangles. -/
theorem C110_given (E : Engines K) {p : List (List K)} (h : Plane2 p) (t : Topo) :
    (∃ o, triangulatePts E .mpl p (some t) = some (p, t, o) ∧ IsObj .mpl p t o) ∧
      ∀ b, b ≠ .mpl → triangulatePts E b p (some t) = none := by
  obtain ⟨o, e1, e2⟩ := mplObj_some h t
  exact ⟨⟨o, by simp [triangulatePts, e1], e2⟩, fun b hb => by simp [triangulatePts, hb]⟩

/-- **C110** points with less than two coordinates are refused by every backend. -/
theorem C110_short (E : Engines K) (b : Backend) {p : List (List K)} {r : List K} (hr : r ∈ p) (h : r.length < 2) (t : Option Topo) :
    triangulatePts E b p t = none := by
  have hn := planeRows_none hr h
  cases t with
  | some t => cases b <;> simp [triangulatePts, mplObj, hn]
  | none =>
    cases b with
    | mpl => simp [triangulatePts, hn]
    | scipy => simp [triangulatePts, hn]
    | pv =>
      simp only [triangulatePts]
      rw [if_neg]
      rw [List.all_eq_true]
      intro hc
      have := hc r hr
      simp only [beq_iff_eq] at this
      omega

/-- **C110** `triobj_to_mpl` makes of every object that `triangulate` returned an object of matplotlib with the plane coordinates of
the same points and with the same triangles, whatever `trim2d` is. -/
theorem C110_to_mpl (E : Engines K) (b : Backend) (trim2d : Bool) {p : List (List K)} {t : Topo} {o : TriObj K}
    (h : triangulatePts E b p none = some (p, t, o)) : ∃ o', triobjToMpl E trim2d o = some o' ∧ IsObj .mpl p t o' := by
  have hp : Plane2 p := by
    intro r hr
    by_contra hc
    rw [C110_short E b hr (by omega) none] at h
    cases h
  have h3 : b = .pv → ∀ r ∈ p, r.length = 3 := by
    rintro rfl r hr
    simp only [triangulatePts] at h
    split at h
    · rename_i ha
      rw [List.all_eq_true] at ha
      simpa using ha r hr
    · cases h
  obtain ⟨t', o', e1, -, e3, e4, -⟩ := C110_points E b hp h3
  rw [h] at e1
  simp only [Option.some.injEq, Prod.mk.injEq, true_and] at e1
  obtain ⟨rfl, rfl⟩ := e1
  cases b with
  | mpl =>
    obtain ⟨x, y, rfl, e5⟩ := e3
    exact ⟨_, by simp [triobjToMpl, isTriobj], x, y, rfl, e5⟩
  | scipy =>
    obtain ⟨q, rfl, hq⟩ := e3
    have hq2 : Plane2 q := fun r hr => by rw [hq.plane2.2 r hr]
    obtain ⟨o1, f1, f2⟩ := (C110_given E hq2 t).1
    refine ⟨o1, by simp [triobjToMpl, isTriobj, triobjData, f1], ?_⟩
    obtain ⟨x, y, rfl, g1, g2, g3⟩ := f2
    exact ⟨x, y, rfl, hq.trans g1, by rw [g2, hq.1], by rw [g3, hq.1]⟩
  | pv =>
    have e : o = .pv p t := e3
    subst e
    have et : t = E.pv p := by
      simp only [triangulatePts] at h
      split at h
      · simp only [Option.some.injEq, Prod.mk.injEq] at h; exact h.2.1.symm
      · cases h
    obtain ⟨q, q1, q2⟩ := planeRows_some hp
    cases trim2d with
    | true =>
      have hq2 : Plane2 q := fun r hr => by rw [q2.plane2.2 r hr]
      obtain ⟨o1, f1, f2⟩ := (C110_given E hq2 t).1
      refine ⟨o1, by simp [triobjToMpl, isTriobj, triobjData, q1, ← et, f1], ?_⟩
      obtain ⟨x, y, rfl, g1, g2, g3⟩ := f2
      exact ⟨x, y, rfl, q2.trans g1, by rw [g2, q2.1], by rw [g3, q2.1]⟩
    | false =>
      obtain ⟨o1, f1, f2⟩ := (C110_given E hp t).1
      exact ⟨o1, by simp [triobjToMpl, isTriobj, triobjData, ← et, f1], f2⟩

/-- **C110** objects of matplotlib are returned as they are; other objects are refused. -/
theorem C110_other (E : Engines K) (trim2d : Bool) (b : Backend) :
    (∀ x y t m, triobjToMpl E trim2d (.mpl x y t m) = some (.mpl x y t m)) ∧ triobjToMpl E trim2d .other = none ∧
      triobjData E trim2d .other = none ∧ triangulateObj E b trim2d .other = none := by
  refine ⟨fun x y t m => by simp [triobjToMpl, isTriobj], by simp [triobjToMpl, isTriobj], rfl, rfl⟩

/-- **C110** `triangulate(triobj=o)` returns the data of the object and the object. -/
theorem C110_object (E : Engines K) (trim2d : Bool) (b : Backend) (o : TriObj K) :
    (∀ q t o', triangulateObj E b trim2d o = some (q, t, o') → triobjData E trim2d o = some (q, t) ∧ o' = o) ∧
    (∀ q t, triobjData E trim2d o = some (q, t) → triangulateObj E b trim2d o = some (q, t, o)) := by
  constructor
  · intro q t o' h
    simp only [triangulateObj, Option.map_eq_some_iff, Prod.mk.injEq] at h
    obtain ⟨⟨q', t'⟩, h1, rfl, rfl, rfl⟩ := h
    exact ⟨h1, rfl⟩
  · intro q t h
    simp [triangulateObj, h]

end

/-! ## what does not hold -/

/-- Two triangles of a square, and the other two. -/
def squareRows : List (List ℚ) := [[0, 0, 0], [1, 0, 0], [1, 1, 0], [0, 1, 0]]

/-- An engine that cuts every square along the same diagonal. -/
def someEngines : Engines ℚ := ⟨fun _ => [[0, 1, 2], [0, 2, 3]], fun _ => [[0, 1, 2], [0, 2, 3]], fun _ => [[0, 1, 2], [0, 2, 3]]⟩

/-- (negation) "the function can be used to transform between the supported backends": the backend is ignored when an object is
given. -/
theorem C110_backend_false : ¬ ∀ (E : Engines ℚ) (b b' : Backend) (p q : List (List ℚ)) (t t' : Topo) (o o' : TriObj ℚ),
    triangulatePts E b p none = some (p, t, o) → triangulateObj E b' true o = some (q, t', o') → IsObj b' q t' o' := by
  intro h
  obtain ⟨x, y, e, -⟩ := h someEngines .scipy .mpl squareRows [[0, 0], [1, 0], [1, 1], [0, 1]] _ _ _ _ rfl rfl
  cases e

/-- (negation) The triangles of a `PolyData` are not those it has: they are made anew. -/
theorem C110_pv_false : ¬ ∀ (E : Engines ℚ) (p q : List (List ℚ)) (t t' : Topo), triobjData E true (.pv p t) = some (q, t') → t' = t := by
  intro h
  exact absurd (h someEngines squareRows [[0, 0], [1, 0], [1, 1], [0, 1]] [[0, 1, 3], [1, 2, 3]] [[0, 1, 2], [0, 2, 3]] rfl) (by decide)

/-- The triangles of a matplotlib object that are not masked. -/
def shownTris (t : Topo) : Option (List Bool) → Topo
  | none => t
  | some m => ((t.zip m).filter fun q => !q.2).map Prod.fst

/-- (negation) Masked triangles are read as well. -/
theorem C110_mask_false : ¬ ∀ (E : Engines ℚ) (x y : List ℚ) (t : Topo) (m : Option (List Bool)) (q : List (List ℚ)) (t' : Topo),
    triobjData E true (.mpl x y t m) = some (q, t') → t' = shownTris t m := by
  intro h
  exact absurd (h someEngines [0, 1, 1, 0] [0, 0, 1, 1] [[0, 1, 2], [0, 2, 3]] (some [true, false]) _ _ rfl) (by decide)

/-! ## edges -/

theorem triLines_take {topo : Topo} (h : ∀ t ∈ topo, 3 ≤ t.length) : triLines topo = triLines (topo.map (List.take 3)) := by
  unfold triLines edgesTri
  congr 1
  rw [List.mapM_map]
  apply mapM_congr'
  intro t ht
  match t, h t ht with
  | a :: b :: c :: l, _ => rfl

/-- **C110** `TriMesh.edges`: the sides of the triangles (of the corners for triangles with six nodes), each once, nothing else; the
numbers returned for the cells are those of their three sides. -/
theorem C110_edges {topo : Topo} (h : ∀ t ∈ topo, 3 ≤ t.length) :
    ∃ E I, triMeshEdges topo = some (E, I) ∧ I.length = topo.length ∧
      (∀ (i j : Nat) (a b : List Nat), E[i]? = some a → E[j]? = some b → a.Perm b → i = j) ∧
      (∀ (c k : Nat) (t : List Nat), topo[c]? = some t → k < 3 → ∃ id e a b, nodeAt I c k = some id ∧ E[id]? = some e ∧
        t[k]? = some a ∧ t[(k + 1) % 3]? = some b ∧ e.Perm [a, b]) ∧
      (∀ e ∈ E, ∃ t ∈ topo, SideOf e t) := by
  obtain ⟨E, I, h1, h2, h3, h4, h5⟩ := C75_lines (triangles := topo.map (List.take 3)) (by
    intro t ht
    obtain ⟨s, hs, rfl⟩ := List.mem_map.1 ht
    rw [List.length_take, Nat.min_eq_left (h s hs)])
  refine ⟨E, I, by rw [triMeshEdges, triLines_take h, h1], by simpa using h2, h3, ?_, ?_⟩
  · intro c k t ht hk
    obtain ⟨id, e, a, b, f1, f2, f3, f4, f5⟩ := h4 c k (t.take 3) (by rw [List.getElem?_map, ht]; rfl) hk
    rw [List.getElem?_take_of_lt hk] at f3
    rw [List.getElem?_take_of_lt (Nat.mod_lt _ (by decide))] at f4
    exact ⟨id, e, a, b, f1, f2, f3, f4, f5⟩
  · intro e he
    obtain ⟨t, ht, i, hi, a, b, f3, f4, f5⟩ := h5 e he
    obtain ⟨s, hs, rfl⟩ := List.mem_map.1 ht
    rw [List.getElem?_take_of_lt hi] at f3
    rw [List.getElem?_take_of_lt (Nat.mod_lt _ (by decide))] at f4
    exact ⟨s, hs, i, hi, a, b, f3, f4, f5⟩

/-- **C110** the edges and their numbers give the cells back: corner `k` of a triangle with three different corners is the common
node of its sides `k` and `k - 1`. -/
theorem C110_reconstruct {topo : Topo} (h : ∀ t ∈ topo, 3 ≤ t.length) {E I : List (List Nat)} (he : triMeshEdges topo = some (E, I))
    {c k : Nat} {t : List Nat} (ht : topo[c]? = some t) (hk : k < 3) (hd : (t.take 3).Nodup) (n : Nat) :
    t[k]? = some n ↔ ∃ i j e f, nodeAt I c k = some i ∧ nodeAt I c ((k + 2) % 3) = some j ∧ E[i]? = some e ∧ E[j]? = some f ∧
      n ∈ e ∧ n ∈ f := by
  obtain ⟨E', I', h1, -, -, h4, -⟩ := C110_edges h
  rw [he] at h1
  simp only [Option.some.injEq, Prod.mk.injEq] at h1
  obtain ⟨rfl, rfl⟩ := h1
  obtain ⟨i, e, a, b, f1, f2, f3, f4, f5⟩ := h4 c k t ht hk
  obtain ⟨j, f, a', b', g1, g2, g3, g4, g5⟩ := h4 c ((k + 2) % 3) t ht (Nat.mod_lt _ (by decide))
  have e1 : ((k + 2) % 3 + 1) % 3 = k := by omega
  rw [e1, f3] at g4
  obtain rfl := Option.some.inj g4
  have hba : b ≠ a' := by
    rintro rfl
    have hl := h t (List.mem_of_getElem? ht)
    have p1 : (t.take 3)[(k + 1) % 3]? = some b := by rw [List.getElem?_take_of_lt (Nat.mod_lt _ (by decide))]; exact f4
    have p2 : (t.take 3)[(k + 2) % 3]? = some b := by rw [List.getElem?_take_of_lt (Nat.mod_lt _ (by decide))]; exact g3
    obtain ⟨q1, q2⟩ := List.getElem?_eq_some_iff.1 p1
    obtain ⟨r1, r2⟩ := List.getElem?_eq_some_iff.1 p2
    have := hd.getElem_inj_iff.1 (q2.trans r2.symm)
    omega
  have m1 : ∀ n, n ∈ e ↔ n = a ∨ n = b := fun n => by rw [f5.mem_iff]; simp
  have m2 : ∀ n, n ∈ f ↔ n = a' ∨ n = a := fun n => by rw [g5.mem_iff]; simp
  constructor
  · intro hn
    rw [f3] at hn
    obtain rfl := Option.some.inj hn
    exact ⟨i, j, e, f, f1, g1, f2, g2, (m1 a).2 (.inl rfl), (m2 a).2 (.inr rfl)⟩
  · rintro ⟨i', j', e', f', k1, k2, k3, k4, k5, k6⟩
    rw [f1] at k1
    rw [g1] at k2
    obtain rfl := Option.some.inj k1
    obtain rfl := Option.some.inj k2
    rw [f2] at k3
    rw [g2] at k4
    obtain rfl := Option.some.inj k3
    obtain rfl := Option.some.inj k4
    rcases (m1 n).1 k5 with rfl | rfl
    · exact f3
    · rcases (m2 n).1 k6 with h' | rfl
      · exact absurd h' hba
      · exact f3

/-! ## from_TriMesh -/

/-- **C110** arrays are elevated by `T3_to_T6`. -/
theorem C110_from_arrays {K : Type} [Field K] [CharZero K] (coords : List (V3 K)) (topo : Topo) (h : MeshOK coords topo 3) :
    ∃ c t, fromTriMesh (.arrays coords topo) = some (c, t) ∧ ElevatedMesh coords topo lcT3 [[[0, 1], [1, 2], [2, 0]]] lcT6 c t :=
  C12_T3_to_T6 coords topo h

/-- (negation) A mesh of triangles, the argument the function is named for, raises always. -/
theorem C110_from_mesh_false (coords : List (V3 ℚ)) (topo : Topo) : fromTriMesh (.mesh coords topo) = none := rfl

/-! ## examples -/

example : triangulatePts someEngines .scipy squareRows none = some (squareRows, [[0, 1, 2], [0, 2, 3]],
    .scipy [[0, 0], [1, 0], [1, 1], [0, 1]] [[0, 1, 2], [0, 2, 3]]) := by decide +kernel
example : triobjToMpl someEngines true (.pv squareRows [[0, 1, 2], [0, 2, 3]]) =
    some (.mpl [0, 1, 1, 0] [0, 0, 1, 1] [[0, 1, 2], [0, 2, 3]] none) := by decide +kernel
example : triMeshEdges [[0, 1, 2, 7, 8, 9], [2, 1, 3, 8, 5, 6]] =
    some ([[0, 1], [0, 2], [1, 2], [1, 3], [2, 3]], [[0, 2, 1], [2, 3, 4]]) := by decide

end PM
