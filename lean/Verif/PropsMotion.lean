import Verif.PropsPolyData
import Mathlib.Algebra.BigOperators.Group.List.Basic

/-!
# Rigid motions of meshes (C43)

All frames are the ambient one here, so that the points of different blocks have comparable coordinates.
-/

namespace PM

variable {P D : Type}

theorem sourcePath_self {m : List (MBlock P D)} {p : List Nat} (h : (ptsAt m p).isSome) : sourcePath m p = some p := by
  cases p with
  | nil => simp [sourcePath, h]
  | cons k p => simp [sourcePath, h]

theorem sourcePath_above {m : List (MBlock P D)} {p s : List Nat} (h : sourcePath m p = some s) :
    s <:+ p ∧ (ptsAt m s).isSome := by
  induction p with
  | nil =>
    unfold sourcePath at h
    split at h
    · cases h; exact ⟨List.suffix_rfl, by assumption⟩
    · cases h
  | cons k p ih =>
    unfold sourcePath at h
    split at h
    · cases h; exact ⟨List.suffix_rfl, by assumption⟩
    · exact ⟨(ih h).1.trans (List.suffix_cons _ _), (ih h).2⟩

/-- The points beneath a block without nested point blocks are its own. -/
theorem pointsBeneath_eq {m : List (MBlock P D)} (hn : (m.map MBlock.path).Nodup) {s : MBlock P D} {q : PData P D}
    (hs : s ∈ m) (hq : s.pts = some q) (hnest : ∀ b ∈ m, b.pts.isSome → s.path <:+ b.path → b = s) :
    pointsBeneath m s.path = q.x := by
  unfold pointsBeneath
  have h1 : allPts (m.filter fun b => s.path <:+ b.path) = [q] := by
    induction m with
    | nil => simp at hs
    | cons a m ih =>
      rw [List.map_cons, List.nodup_cons] at hn
      rw [List.filter_cons]
      rcases List.mem_cons.1 hs with rfl | hs'
      · simp only [List.suffix_rfl, decide_true, if_true]
        rw [allPts_cons_some hq]
        congr 1
        unfold allPts
        rw [List.filterMap_eq_nil_iff]
        intro b hb
        rw [List.mem_filter] at hb
        by_contra hbp
        have := hnest b (List.mem_cons_of_mem _ hb.1) (by simpa [Option.isSome_iff_ne_none] using hbp) (by simpa using hb.2)
        rw [this] at hb
        exact hn.1 (List.mem_map_of_mem hb.1)
      · have ih' := ih hn.2 hs' fun b hb => hnest b (List.mem_cons_of_mem _ hb)
        have hne : a ≠ s := by
          rintro rfl
          exact hn.1 (List.mem_map_of_mem hs')
        split
        · rename_i hp
          rw [allPts_cons_none, ih']
          by_contra hap
          exact hne (hnest a List.mem_cons_self (by simpa [Option.isSome_iff_ne_none] using hap) (by simpa using hp))
        · exact ih'
  rw [h1]
  simp

theorem setX_eq {m : List (MBlock P D)} (hn : (m.map MBlock.path).Nodup) {strict : Bool} {s : MBlock P D} {q : PData P D}
    (hs : s ∈ m) (hq : s.pts = some q) {x : List P} (hx : x.length = q.x.length) :
    setX strict s.path x m = some (m.map fun b => if b.path = s.path then { b with pts := some { q with x := x } } else b) := by
  unfold setX
  apply mapM_some
  intro b hb
  by_cases e : b.path = s.path
  · have h1 := blockAt_of_mem hn hb
    rw [e, blockAt_of_mem hn hs] at h1
    have : s = b := Option.some.inj h1
    subst this
    simp [hq, assignX, hx]
  · simp [e]

/-- Moving, rotating a block that has points of its own and no other point blocks beneath: all its points undergo the motion,
nothing else changes. -/
theorem C43_partial {m : List (MBlock P D)} (hm : MeshTree m) {s : MBlock P D} {q : PData P D} (hs : s ∈ m)
    (hq : s.pts = some q) (hnest : ∀ b ∈ m, b.pts.isSome → s.path <:+ b.path → b = s) (strict : Bool) (g : P → P) :
    ∃ m', applyMotion strict g s.path m = some m' ∧ m'.length = m.length ∧
      ∀ (i : Nat) (b : MBlock P D), m[i]? = some b →
        ∃ b', m'[i]? = some b' ∧ b'.path = b.path ∧ b'.cells = b.cells ∧
          (b.path = s.path → b'.pts = some { q with x := q.x.map g }) ∧ (b.path ≠ s.path → b' = b) := by
  have h1 : movedPoints m s.path = some (s.path, q.x) := by
    unfold movedPoints
    rw [sourcePath_self (by rw [ptsAt_of_mem hm.nodup hs, hq]; rfl)]
    simp [pointsBeneath_eq hm.nodup hs hq hnest]
  refine ⟨m.map fun b => if b.path = s.path then { b with pts := some { q with x := q.x.map g } } else b, ?_, ?_, ?_⟩
  · unfold applyMotion
    rw [h1]
    simp only [Option.bind_some]
    exact setX_eq hm.nodup hs hq (by simp)
  · simp
  · intro i b hi
    refine ⟨if b.path = s.path then { b with pts := some { q with x := q.x.map g } } else b, ?_, ?_⟩
    · rw [List.getElem?_map, hi]
      rfl
    · split
      · rename_i e
        exact ⟨rfl, rfl, fun _ => rfl, fun h => absurd e h⟩
      · rename_i e
        exact ⟨rfl, rfl, fun h => absurd h e, fun _ => rfl⟩

example : ∃ m', moveMesh true (⟨1, 2, 3⟩ : V3 ℚ) [] flatMesh = some m' ∧
    view m' = [(some [⟨1, 2, 3⟩, ⟨2, 2, 3⟩, ⟨3, 2, 3⟩, ⟨4, 2, 3⟩], none), (none, some [[1, 2]]), (none, some [[3, 2]])] :=
  ⟨_, rfl, by decide +kernel⟩

example : ∃ m', applyMotion true (fun x : V3 ℚ => x + ⟨1, 2, 3⟩) [] flatMesh = some m' := by
  obtain ⟨m', h, -⟩ := C43_partial (m := flatMesh) ⟨⟨_, _, rfl, rfl⟩, by simp [flatMesh]⟩ (s := _) List.mem_cons_self rfl
    (by
      intro b hb hbs
      simp only [flatMesh, List.mem_cons, List.not_mem_nil, or_false] at hb
      rcases hb with rfl | rfl | rfl <;> simp at hbs ⊢) true (fun x => x + ⟨1, 2, 3⟩)
  exact ⟨m', h⟩

/-- **C43** `move(v)` of a block that has points of its own and no other point blocks beneath adds `v` to all of its points,
nothing else changes. Missing: other blocks (`C43_block_false`, `C43_nested_false`). -/
theorem C43_move_partial {K : Type} [Field K] {D : Type} {m : List (MBlock (V3 K) D)} (hm : MeshTree m) {s : MBlock (V3 K) D}
    {q : PData (V3 K) D} (hs : s ∈ m) (hq : s.pts = some q) (hnest : ∀ b ∈ m, b.pts.isSome → s.path <:+ b.path → b = s)
    (strict : Bool) (v : V3 K) :
    ∃ m', moveMesh strict v s.path m = some m' ∧ m'.length = m.length ∧
      (∀ (i : Nat) (b : MBlock (V3 K) D), m[i]? = some b →
        ∃ b', m'[i]? = some b' ∧ b'.path = b.path ∧ b'.cells = b.cells ∧
          (b.path = s.path → ∃ Q, b'.pts = some Q ∧ Q.x.length = q.x.length ∧ Q = { q with x := Q.x } ∧
            ∀ (n : Nat) y, q.x[n]? = some y → Q.x[n]? = some ⟨y.x + v.x, y.y + v.y, y.z + v.z⟩) ∧
          (b.path ≠ s.path → b' = b)) := by
  obtain ⟨m', h1, h2, h3⟩ := C43_partial hm hs hq hnest strict fun y => y + v
  refine ⟨m', h1, h2, fun i b hi => ?_⟩
  obtain ⟨b', e1, e2, e3, e4, e5⟩ := h3 i b hi
  refine ⟨b', e1, e2, e3, fun hp => ⟨_, e4 hp, by simp, rfl, fun n y hy => ?_⟩, e5⟩
  rw [List.getElem?_map, hy]
  rfl

/-- What moving a block `p` should do to the points `q` of its source: the points used by the cells of the block are moved, the
others stay. -/
def MovedExactly (m : List (MBlock (V3 ℚ) ℚ)) (p : List Nat) (q : PData (V3 ℚ) ℚ) (v : V3 ℚ) (Q : PData (V3 ℚ) ℚ) : Prop :=
  Q.x.length = q.x.length ∧ ∀ n x, q.x[n]? = some x →
    (UsesNode (topoBeneath m p) n → Q.x[n]? = some (x + v)) ∧ (¬ UsesNode (topoBeneath m p) n → Q.x[n]? = some x)

/-- Moving a block without points of its own does not do this, whether or not the assignment of an array of another
length is accepted: the coordinates of the source are replaced by those of the moved points alone. -/
theorem C43_block_false : ¬ ∃ strict : Bool, ∀ (m : List (MBlock (V3 ℚ) ℚ)) (p : List Nat) (v : V3 ℚ) (q : PData (V3 ℚ) ℚ),
    MeshTree m → sourceOf m p = some q → (∀ n, UsesNode (topoBeneath m p) n → n < q.x.length) →
    ∃ m' Q, moveMesh strict v p m = some m' ∧ sourceOf m' p = some Q ∧ MovedExactly m p q v Q := by
  rintro ⟨strict, h⟩
  obtain ⟨m', Q, h1, h2, h3, -⟩ := h flatMesh [0] ⟨1, 0, 0⟩ _ ⟨⟨_, _, rfl, rfl⟩, by simp [flatMesh]⟩ rfl
    (by
      have : topoBeneath flatMesh [0] = [[1, 2]] := by decide +kernel
      intro n
      rw [this]
      rintro ⟨row, hrow, hn⟩
      simp at hrow
      subst hrow
      simp at hn
      show n < 4
      omega)
  cases strict with
  | true =>
    have : moveMesh true (⟨1, 0, 0⟩ : V3 ℚ) [0] flatMesh = none := rfl
    rw [this] at h1
    cases h1
  | false =>
    have e : (moveMesh false (⟨1, 0, 0⟩ : V3 ℚ) [0] flatMesh).bind (fun m => (sourceOf m [0]).map fun q => q.x.length) =
        some 2 := by decide +kernel
    rw [h1] at e
    simp only [Option.bind_some, h2, Option.map_some, h3] at e
    exact absurd e (by decide +kernel)

/-- Moving a source with another source beneath it: the points of both are assigned to the outer one. -/
theorem C43_nested_false : ¬ ∃ strict : Bool, ∀ (m : List (MBlock (V3 ℚ) ℚ)) (s : MBlock (V3 ℚ) ℚ) (v : V3 ℚ)
    (q : PData (V3 ℚ) ℚ), MeshTree m → s ∈ m → s.pts = some q →
    ∃ m' Q, moveMesh strict v s.path m = some m' ∧ ptsAt m' s.path = some Q ∧ Q.x = q.x.map fun x => x + v := by
  rintro ⟨strict, h⟩
  obtain ⟨m', Q, h1, h2, h3⟩ := h (demoMesh Fr.ambient) _ ⟨1, 0, 0⟩ _ (demoMesh_tree _) List.mem_cons_self rfl
  cases strict with
  | true =>
    have : moveMesh true (⟨1, 0, 0⟩ : V3 ℚ) [] (demoMesh Fr.ambient) = none := rfl
    rw [this] at h1
    cases h1
  | false =>
    have e : (moveMesh false (⟨1, 0, 0⟩ : V3 ℚ) [] (demoMesh Fr.ambient)).bind
        (fun m => (ptsAt m []).map fun q => q.x.length) = some 7 := by decide +kernel
    rw [h1] at e
    simp only [Option.bind_some, h2, Option.map_some, h3] at e
    exact absurd e (by decide +kernel)

/-! ### spinning and centring -/

section
variable {K : Type} [Field K] [CharZero K]

theorem sum_map_add_const (l : List (V3 K)) (f : V3 K → K) (c : K) :
    (l.map fun x => f x + c).sum = (l.map f).sum + l.length * c := by
  induction l with
  | nil => simp
  | cons a l ih => simp only [List.map_cons, List.sum_cons, ih, List.length_cons]; push_cast; ring

theorem meshCenter_sub {x : List (V3 K)} (hx : x ≠ []) (c : V3 K) : meshCenter (x.map fun y => y - c) = meshCenter x - c := by
  have hl : (x.length : K) ≠ 0 := by simpa using hx
  have e : ∀ (f : V3 K → K), (∀ y, f (y - c) = f y + -f c) →
      ((x.map fun y => y - c).map f).sum / (x.length : K) = (x.map f).sum / (x.length : K) - f c := by
    intro f hf
    rw [List.map_map, show (f ∘ fun y => y - c) = fun y => f y + -f c from funext hf, sum_map_add_const]
    field_simp
    ring
  ext
  · simpa [meshCenter] using e V3.x (fun y => by simp [sub_eq_add_neg])
  · simpa [meshCenter] using e V3.y (fun y => by simp [sub_eq_add_neg])
  · simpa [meshCenter] using e V3.z (fun y => by simp [sub_eq_add_neg])

/-- A linear map, as an orthogonal matrix gives it. -/
structure IsLinear3 (R : V3 K → V3 K) : Prop where
  add : ∀ a b, R (a + b) = R a + R b
  smul : ∀ (k : K) a, R (k • a) = k • R a

theorem meshCenter_linear {R : V3 K → V3 K} (hR : IsLinear3 R) (x : List (V3 K)) : meshCenter (x.map R) = R (meshCenter x) := by
  have h0 : R 0 = 0 := by
    have := hR.smul 0 0
    have e : (0 : K) • (0 : V3 K) = 0 := by ext <;> simp
    have e' : (0 : K) • R 0 = 0 := by ext <;> simp
    rw [e, e'] at this
    exact this
  have hs : ∀ l : List (V3 K), R ⟨(l.map V3.x).sum, (l.map V3.y).sum, (l.map V3.z).sum⟩ =
      ⟨((l.map R).map V3.x).sum, ((l.map R).map V3.y).sum, ((l.map R).map V3.z).sum⟩ := by
    intro l
    induction l with
    | nil => exact h0
    | cons a l ih =>
      have : (⟨((a :: l).map V3.x).sum, ((a :: l).map V3.y).sum, ((a :: l).map V3.z).sum⟩ : V3 K) =
          a + ⟨(l.map V3.x).sum, (l.map V3.y).sum, (l.map V3.z).sum⟩ := by ext <;> simp
      rw [this, hR.add, ih]
      ext <;> simp
  have e : ∀ l : List (V3 K), meshCenter l = (l.length : K)⁻¹ • ⟨(l.map V3.x).sum, (l.map V3.y).sum, (l.map V3.z).sum⟩ := by
    intro l
    ext <;> simp [meshCenter, div_eq_inv_mul]
  rw [e, e, hR.smul, hs]
  simp

/-- Spinning a source block turns its points about their centre, which stays where it is. -/
theorem C43_spin {m : List (MBlock (V3 K) D)} (hm : MeshTree m) {s : MBlock (V3 K) D} {q : PData (V3 K) D} (hs : s ∈ m)
    (hq : s.pts = some q) (hnest : ∀ b ∈ m, b.pts.isSome → s.path <:+ b.path → b = s) (hx : q.x ≠ []) (strict : Bool)
    {R : V3 K → V3 K} (hR : IsLinear3 R) :
    ∃ m' Q, spinMesh strict R s.path m = some m' ∧ ptsAt m' s.path = some Q ∧
      Q.x = q.x.map (fun y => meshCenter q.x + R (y - meshCenter q.x)) ∧ meshCenter Q.x = meshCenter q.x ∧
      ∀ (i : Nat) (b : MBlock (V3 K) D), m[i]? = some b → b.path ≠ s.path → m'[i]? = some b := by
  have h1 : movedPoints m s.path = some (s.path, q.x) := by
    unfold movedPoints
    rw [sourcePath_self (by rw [ptsAt_of_mem hm.nodup hs, hq]; rfl)]
    simp [pointsBeneath_eq hm.nodup hs hq hnest]
  set c := meshCenter q.x with hc
  have hfun : (fun y => R (y + -c) + c) = fun y : V3 K => c + R (y - c) := by
    funext y
    have : y + -c = y - c := by ext <;> simp [sub_eq_add_neg]
    rw [this]
    ext <;> simp [add_comm]
  set x' := q.x.map fun y => c + R (y - c) with hx'
  have h2 : spinMesh strict R s.path m = some (m.map fun b => if b.path = s.path then
      { b with pts := some { q with x := x' } } else b) := by
    unfold spinMesh
    rw [h1]
    simp only [Option.bind_some]
    rw [← hc, hfun, ← hx']
    exact setX_eq hm.nodup hs hq (by rw [hx', List.length_map])
  have hpath : (m.map fun b => if b.path = s.path then { b with pts := some { q with x := x' } } else b).map MBlock.path =
      m.map MBlock.path := by
    rw [List.map_map]
    apply List.map_congr_left
    intro b _
    simp only [Function.comp]
    split <;> rfl
  refine ⟨_, { q with x := x' }, h2, ?_, rfl, ?_, ?_⟩
  · have := ptsAt_of_mem (m := m.map fun b => if b.path = s.path then { b with pts := some { q with x := x' } } else b)
      (by rw [hpath]; exact hm.nodup) (b := { s with pts := some { q with x := x' } })
      (by rw [List.mem_map]; exact ⟨s, hs, by simp⟩)
    exact this
  · show meshCenter x' = c
    have e1 : x' = ((q.x.map fun y => y - c).map R).map fun y => y - (0 - c) := by
      rw [hx', List.map_map, List.map_map]
      apply List.map_congr_left
      intro y _
      ext <;> simp [add_comm]
    rw [e1, meshCenter_sub (by simpa using hx), meshCenter_linear hR, meshCenter_sub hx, ← hc]
    have h0 : R (c - c) = 0 := by
      have h3 := hR.smul 0 0
      have e : (0 : K) • (0 : V3 K) = c - c := by ext <;> simp
      rw [e] at h3
      rw [h3]
      ext <;> simp
    rw [h0]
    ext <;> simp
  · intro i b hi hb
    rw [List.getElem?_map, hi]
    simp [hb]

theorem pointsBeneath_shift {m : List (MBlock (V3 K) D)} {s : List Nat} (c : V3 K) (t : List Nat) (hst : s <:+ t) :
    pointsBeneath (m.map fun b => if s <:+ b.path then
      { b with pts := b.pts.map fun q => { q with x := q.x.map fun y => y - c } } else b) t =
      (pointsBeneath m t).map fun y => y - c := by
  unfold pointsBeneath allPts
  induction m with
  | nil => simp
  | cons a m ih =>
    have hpath : (if s <:+ a.path then { a with pts := a.pts.map fun q => { q with x := q.x.map fun y => y - c } } else a).path =
        a.path := by split <;> rfl
    rw [List.map_cons, List.filter_cons, List.filter_cons, hpath]
    by_cases hp : t <:+ a.path
    · have hsa : s <:+ a.path := hst.trans hp
      simp only [hp, decide_true, if_true, hsa]
      cases hq : a.pts with
      | none => simpa [List.filterMap_cons, hq] using ih
      | some q =>
        simp only [List.filterMap_cons, hq, Option.map_some, List.flatMap_cons, List.map_append]
        rw [ih]
    · simp only [hp, decide_false, Bool.false_eq_true, if_false]
      exact ih

theorem topoBeneath_shift {m : List (MBlock (V3 K) D)} {s : List Nat} (c : V3 K) (t : List Nat) :
    topoBeneath (m.map fun b => if s <:+ b.path then
      { b with pts := b.pts.map fun q => { q with x := q.x.map fun y => y - c } } else b) t = topoBeneath m t := by
  unfold topoBeneath meshTopo allCells
  induction m with
  | nil => simp
  | cons a m ih =>
    have hpath : (if s <:+ a.path then { a with pts := a.pts.map fun q => { q with x := q.x.map fun y => y - c } } else a).path =
        a.path := by split <;> rfl
    have hcells : (if s <:+ a.path then { a with pts := a.pts.map fun q => { q with x := q.x.map fun y => y - c } } else a).cells =
        a.cells := by split <;> rfl
    rw [List.map_cons, List.filter_cons, List.filter_cons, hpath]
    split
    · rw [List.filterMap_cons, List.filterMap_cons, hcells]
      cases a.cells with
      | none => exact ih
      | some q => simp only [List.flatMap_cons, ih]
    · exact ih

theorem ptsAt_shift {m : List (MBlock (V3 K) D)} {s : List Nat} (c : V3 K) (p : List Nat) :
    (ptsAt (m.map fun b => if s <:+ b.path then
      { b with pts := b.pts.map fun q => { q with x := q.x.map fun y => y - c } } else b) p).isSome = (ptsAt m p).isSome := by
  unfold ptsAt blockAt
  induction m with
  | nil => rfl
  | cons a m ih =>
    have hpath : (if s <:+ a.path then { a with pts := a.pts.map fun q => { q with x := q.x.map fun y => y - c } } else a).path =
        a.path := by split <;> rfl
    rw [List.map_cons, List.find?_cons, List.find?_cons, hpath]
    by_cases hp : a.path = p
    · simp only [hp, decide_true]
      split <;> simp
    · simp only [hp, decide_false]
      exact ih

theorem sourcePath_shift {m : List (MBlock (V3 K) D)} {s : List Nat} (c : V3 K) (p : List Nat) :
    sourcePath (m.map fun b => if s <:+ b.path then
      { b with pts := b.pts.map fun q => { q with x := q.x.map fun y => y - c } } else b) p = sourcePath m p := by
  induction p with
  | nil => simp only [sourcePath, ptsAt_shift]
  | cons k p ih => simp only [sourcePath, ptsAt_shift, ih]

theorem gather?_map {α β : Type} (g : α → β) (a : List α) (inds : List Nat) :
    gather? (a.map g) inds = (gather? a inds).map (List.map g) := by
  unfold gather?
  induction inds with
  | nil => rfl
  | cons i inds ih =>
    rw [List.mapM_cons, List.mapM_cons, ih, List.getElem?_map]
    cases a[i]? with
    | none => rfl
    | some x => cases List.mapM (fun i => a[i]?) inds <;> rfl

/-- Centring a block (with points of its own or not): the points of all blocks that belong to its source are shifted by one
and the same vector, no other point changes, and the centre of the block is then the origin. -/
theorem C43_centralize {m : List (MBlock (V3 K) D)} {p s : List Nat} {x : List (V3 K)}
    (hx : movedPoints m p = some (s, x)) (hne : x ≠ []) :
    ∃ m' x' v, centralizeMesh none p m = some m' ∧ movedPoints m' p = some (s, x') ∧ meshCenter x' = 0 ∧
      x' = x.map (fun y => y - v) ∧ m'.length = m.length ∧
      ∀ (i : Nat) (b : MBlock (V3 K) D), m[i]? = some b → ∃ b', m'[i]? = some b' ∧ b'.cells = b.cells ∧ b'.path = b.path ∧
        (s <:+ b.path → b'.pts.map PData.x = b.pts.map fun q => q.x.map fun y => y - v) ∧ (¬ s <:+ b.path → b' = b) := by
  set v := meshCenter x with hv
  have hcent : centralizeMesh none p m = some (m.map fun b => if s <:+ b.path then
      { b with pts := b.pts.map fun q => { q with x := q.x.map fun y => y - v } } else b) := by
    unfold centralizeMesh
    rw [hx]
    simp only [Option.map_some]
    rw [← hv]
  refine ⟨_, x.map fun y => y - v, v, hcent, ?_, ?_, rfl, by simp, ?_⟩
  · unfold movedPoints at hx ⊢
    rw [sourcePath_shift]
    cases hs : sourcePath m p with
    | none => rw [hs] at hx; cases hx
    | some s' =>
      rw [hs] at hx
      simp only [Option.bind_some] at hx ⊢
      have hss : s' = s := by
        split at hx
        · exact (Prod.mk.inj (Option.some.inj hx)).1
        · cases hg : gather? (pointsBeneath m s') (npUnique (topoBeneath m p).flatten) with
          | none => rw [hg] at hx; cases hx
          | some y => rw [hg] at hx; exact (Prod.mk.inj (Option.some.inj hx)).1
      subst hss
      split
      · rename_i e
        rw [if_pos e] at hx
        subst e
        rw [pointsBeneath_shift v s' List.suffix_rfl, (Prod.mk.inj (Option.some.inj hx)).2]
      · rename_i e
        rw [if_neg e] at hx
        rw [pointsBeneath_shift v s' List.suffix_rfl, topoBeneath_shift, gather?_map]
        cases hg : gather? (pointsBeneath m s') (npUnique (topoBeneath m p).flatten) with
        | none => rw [hg] at hx; cases hx
        | some y =>
          rw [hg] at hx
          rw [← (Prod.mk.inj (Option.some.inj hx)).2]
          rfl
  · rw [meshCenter_sub hne, ← hv]
    ext <;> simp
  · intro i b hi
    refine ⟨if s <:+ b.path then { b with pts := b.pts.map fun q => { q with x := q.x.map fun y => y - v } } else b,
      by rw [List.getElem?_map, hi]; rfl, ?_⟩
    split
    · rename_i e
      refine ⟨rfl, rfl, fun _ => ?_, fun h => absurd e h⟩
      cases b.pts <;> rfl
    · rename_i e
      exact ⟨rfl, rfl, fun h => absurd h e, fun _ => rfl⟩

end

example : (centralizeMesh none [0] flatMesh).map (fun m => (view m).map Prod.fst) =
    some [some [⟨-3/2, 0, 0⟩, ⟨-1/2, 0, 0⟩, ⟨1/2, 0, 0⟩, ⟨3/2, 0, 0⟩], none, none] := by decide +kernel

example : movedPoints flatMesh [0] = some ([], [⟨1, 0, 0⟩, ⟨2, 0, 0⟩]) := by decide +kernel

/-- Centring with respect to selected axes only: all coordinates are centred. -/
theorem C43_axes_false : ¬ ∀ (m m' : List (MBlock (V3 ℚ) ℚ)) (p : List Nat) (q q' : PData (V3 ℚ) ℚ), MeshTree m →
    ptsAt m p = some q → centralizeMesh (some [0]) p m = some m' → ptsAt m' p = some q' →
    q'.x.map V3.y = q.x.map V3.y := by
  intro h
  have h1 := h (demoMesh Fr.ambient) _ [0] _ _ (demoMesh_tree _) rfl rfl rfl
  have h2 : ([-1/3, -1/3, 2/3] : List ℚ) = [0, 0, 1] := by
    refine Eq.trans ?_ h1
    decide +kernel
  exact absurd h2 (by decide +kernel)

end PM
