import Verif.PropsMoved
import Verif.PropsExplode
import Verif.PropsSimplices
import Verif.PropsFrameCentre
import Verif.PropsMisc
import Verif.PropsPolyData

/-!
# C137: answers do not depend on the numbers of the points

Two meshes have the same cells if their cells have the same points one by one, whatever the numbers of the points are, however many other points there
are and whether cells share points or have copies. The answers of the library are the same for both, and detaching, renumbering, exploding and unused
points lead from a mesh to one with the same cells.
-/

namespace PM

open V3

/-- The cells of two meshes have the same points, one by one. -/
structure SameCells {α : Type} (c : List α) (t : Topo) (c' : List α) (t' : Topo) : Prop where
  shape : t'.map List.length = t.map List.length
  place : ∀ i j n, nodeAt t i j = some n → ∃ n' p, nodeAt t' i j = some n' ∧ c[n]? = some p ∧ c'[n']? = some p

section
variable {α : Type} {c c' : List α} {t t' : Topo}

/-- Rows of nodes at the same points. -/
def SameRow (c c' : List α) : List Nat → List Nat → Prop := List.Forall₂ fun n n' => ∃ p, c[n]? = some p ∧ c'[n']? = some p

theorem SameCells.length (h : SameCells c t c' t') : t'.length = t.length := by
  have := congrArg List.length h.shape
  simpa using this

theorem SameCells.rows (h : SameCells c t c' t') : List.Forall₂ (SameRow c c') t t' := by
  rw [List.forall₂_iff_get]
  refine ⟨h.length.symm, fun i h1 h2 => ?_⟩
  have hl : t'[i].length = t[i].length := by
    have := congrArg (fun l => l[i]?) h.shape
    simpa [h1, h2] using this
  unfold SameRow
  rw [List.forall₂_iff_get]
  refine ⟨hl.symm, fun j j1 j2 => ?_⟩
  simp only [List.get_eq_getElem] at j1 j2 ⊢
  obtain ⟨n', p, h3, h4, h5⟩ := h.place i j t[i][j] (by simp [nodeAt, h1, j1])
  have : n' = t'[i][j] := by
    have : nodeAt t' i j = some t'[i][j] := by simp [nodeAt, h2, j2]
    rw [this] at h3
    exact (Option.some.inj h3).symm
  subst this
  exact ⟨p, h4, h5⟩

theorem sameCells_of_rows (h : List.Forall₂ (SameRow c c') t t') : SameCells c t c' t' := by
  obtain ⟨hl, hg⟩ := List.forall₂_iff_get.1 h
  refine ⟨?_, ?_⟩
  · refine List.ext_getElem (by simp [hl]) fun i h1 h2 => ?_
    simp only [List.length_map] at h1 h2
    have := (hg i h2 h1).length_eq
    simpa using this.symm
  · intro i j n hn
    obtain ⟨r, hr, hj⟩ := Option.bind_eq_some_iff.1 hn
    obtain ⟨h1, rfl⟩ := List.getElem?_eq_some_iff.1 hr
    obtain ⟨h2, rfl⟩ := List.getElem?_eq_some_iff.1 hj
    have hi := hg i h1 (hl ▸ h1)
    obtain ⟨hl2, hg2⟩ := List.forall₂_iff_get.1 hi
    simp only [List.get_eq_getElem] at hl2 hg2
    obtain ⟨p, h3, h4⟩ := hg2 j h2 (hl2 ▸ h2)
    exact ⟨_, p, by simp [nodeAt, hl ▸ h1, hl2 ▸ h2], h3, h4⟩

theorem SameCells.symm (h : SameCells c t c' t') : SameCells c' t' c t := by
  refine sameCells_of_rows ?_
  have := h.rows
  refine this.flip.imp fun r r' hr => ?_
  exact List.Forall₂.imp (fun n n' ⟨p, h1, h2⟩ => ⟨p, h2, h1⟩) (List.Forall₂.flip hr)

theorem SameCells.trans {c'' : List α} {t'' : Topo} (h : SameCells c t c' t') (h' : SameCells c' t' c'' t'') : SameCells c t c'' t'' := by
  refine ⟨h'.shape.trans h.shape, fun i j n hn => ?_⟩
  obtain ⟨n', p, h1, h2, h3⟩ := h.place i j n hn
  obtain ⟨n'', q, h4, h5, h6⟩ := h'.place i j n' h1
  rw [h3] at h5
  obtain rfl := Option.some.inj h5
  exact ⟨n'', p, h4, h2, h6⟩

theorem sameCells_refl (h : ∀ n, UsesNode t n → n < c.length) : SameCells c t c t := by
  refine ⟨rfl, fun i j n hn => ?_⟩
  obtain ⟨r, hr, hj⟩ := Option.bind_eq_some_iff.1 hn
  have := h n ⟨r, List.mem_of_getElem? hr, List.mem_of_getElem? hj⟩
  exact ⟨n, c[n], hn, List.getElem?_eq_getElem this, List.getElem?_eq_getElem this⟩

theorem mapM_forall₂ {A B C : Type} {f : A → Option C} {g : B → Option C} {l : List A} {l' : List B}
    (h : List.Forall₂ (fun a b => f a = g b) l l') : l.mapM f = l'.mapM g := by
  induction h with
  | nil => rfl
  | cons h1 _ ih => rw [List.mapM_cons, List.mapM_cons, h1, ih]

theorem SameRow.gather {r r' : List Nat} (h : SameRow c c' r r') : gather? c r = gather? c' r' :=
  mapM_forall₂ (h.imp fun _ _ ⟨p, h1, h2⟩ => by rw [h1, h2])

/-- The points of the cells are the same. -/
theorem SameCells.points (h : SameCells c t c' t') : t.mapM (gather? c) = t'.mapM (gather? c') :=
  mapM_forall₂ (h.rows.imp fun _ _ hr => hr.gather)

theorem SameRow.get {r r' : List Nat} (h : SameRow c c' r r') (k : Nat) :
    (r[k]? = none ∧ r'[k]? = none) ∨ ∃ a a' p, r[k]? = some a ∧ r'[k]? = some a' ∧ c[a]? = some p ∧ c'[a']? = some p := by
  obtain ⟨hl, hg⟩ := List.forall₂_iff_get.1 h
  by_cases hk : k < r.length
  · right
    obtain ⟨p, h1, h2⟩ := hg k hk (hl ▸ hk)
    exact ⟨r[k], r'[k]'(hl ▸ hk), p, by simp [hk], by simp [hl ▸ hk], h1, h2⟩
  · left
    simp only [List.getElem?_eq_none_iff]
    omega

/-- Nodes picked from rows at the same points. -/
theorem SameRow.pick {r r' : List Nat} (h : SameRow c c' r r') {m : List Nat} (hm : ∀ q ∈ m, q < r.length) :
    ∃ s s', gather? r m = some s ∧ gather? r' m = some s' ∧ SameRow c c' s s' := by
  induction m with
  | nil => exact ⟨[], [], rfl, rfl, List.Forall₂.nil⟩
  | cons q m ih =>
    obtain ⟨s, s', h1, h2, h3⟩ := ih fun q hq => hm q (List.mem_cons_of_mem _ hq)
    have hq := hm q List.mem_cons_self
    rcases h.get q with ⟨h4, -⟩ | ⟨a, a', p, h4, h5, h6, h7⟩
    · rw [List.getElem?_eq_none_iff] at h4
      omega
    · refine ⟨a :: s, a' :: s', ?_, ?_, List.Forall₂.cons ⟨p, h6, h7⟩ h3⟩
      · simp only [gather?, List.mapM_cons, h4] at h1 ⊢
        rw [h1]; rfl
      · simp only [gather?, List.mapM_cons, h5] at h2 ⊢
        rw [h2]; rfl

end

/-! ## cells cut into pieces -/

section
variable {α : Type} {c c' : List α} {t t' : Topo}

/-- Both fail, or both succeed with related results. -/
def BothOr {A B : Type} (R : A → B → Prop) (o : Option A) (o' : Option B) : Prop :=
  (o = none ∧ o' = none) ∨ ∃ s s', o = some s ∧ o' = some s' ∧ R s s'

theorem BothOr.bind_eq {A B C : Type} {R : A → B → Prop} {o : Option A} {o' : Option B} {f : A → Option C} {g : B → Option C} (h : BothOr R o o')
    (hfg : ∀ a b, R a b → f a = g b) : o.bind f = o'.bind g := by
  rcases h with ⟨rfl, rfl⟩ | ⟨s, s', rfl, rfl, hr⟩
  · rfl
  · exact hfg s s' hr

theorem mapM_bothOr {A B C D : Type} {R : C → D → Prop} {f : A → Option C} {g : B → Option D} {l : List A} {l' : List B}
    (h : List.Forall₂ (fun a b => BothOr R (f a) (g b)) l l') : BothOr (List.Forall₂ R) (l.mapM f) (l'.mapM g) := by
  induction h with
  | nil => exact .inr ⟨[], [], rfl, rfl, .nil⟩
  | cons h1 _ ih =>
    rw [List.mapM_cons, List.mapM_cons]
    rcases h1 with ⟨h1, h2⟩ | ⟨s, s', h1, h2, h3⟩
    · left; rw [h1, h2]; exact ⟨rfl, rfl⟩
    · rcases ih with ⟨h4, h5⟩ | ⟨u, u', h4, h5, h6⟩
      · left; rw [h1, h2, h4, h5]; exact ⟨rfl, rfl⟩
      · right; exact ⟨s :: u, s' :: u', by rw [h1, h4]; rfl, by rw [h2, h5]; rfl, .cons h3 h6⟩

theorem SameRow.pick_or {r r' : List Nat} (h : SameRow c c' r r') (m : List Nat) : BothOr (SameRow c c') (gather? r m) (gather? r' m) := by
  refine mapM_bothOr (R := fun n n' => ∃ p, c[n]? = some p ∧ c'[n']? = some p) ?_
  induction m with
  | nil => exact .nil
  | cons q m ih =>
    refine .cons ?_ ih
    rcases h.get q with h1 | ⟨a, a', p, h1, h2, h3⟩
    · exact .inl h1
    · exact .inr ⟨a, a', h1, h2, p, h3⟩

theorem forall₂_flatMap {A B C D : Type} {R : A → B → Prop} {S : C → D → Prop} {f : A → List C} {g : B → List D} {l : List A} {l' : List B}
    (h : List.Forall₂ R l l') (hfg : ∀ a b, R a b → List.Forall₂ S (f a) (g b)) : List.Forall₂ S (l.flatMap f) (l'.flatMap g) := by
  induction h with
  | nil => exact .nil
  | cons h1 _ ih =>
    rw [List.flatMap_cons, List.flatMap_cons]
    exact List.rel_append (hfg _ _ h1) ih

theorem forall₂_map_same {A C D : Type} {S : C → D → Prop} {f : A → C} {g : A → D} (l : List A) (h : ∀ a, S (f a) (g a)) :
    List.Forall₂ S (l.map f) (l.map g) := by
  induction l with
  | nil => exact .nil
  | cons a l ih => exact .cons (h a) ih

/-- The tetrahedra of the same cells. -/
theorem SameCells.tets (h : SameCells c t c' t') (map : Topo) :
    BothOr (List.Forall₂ (SameRow c c')) (toTetRows t map) (toTetRows t' map) := by
  refine mapM_bothOr (f := id) (g := id) ?_
  exact forall₂_flatMap h.rows fun r r' hr => forall₂_map_same map fun m => hr.pick_or m

theorem SameCells.pathOK (h : SameCells c t c' t') {path : Topo} {n : Nat} (hp : PathOK t path n) : PathOK t' path n := by
  refine ⟨hp.rect, fun r' hr' p hpp q hq => ?_⟩
  obtain ⟨i, hi, rfl⟩ := List.mem_iff_getElem.1 hr'
  have h2 := h.length
  have hl : t'[i].length = (t[i]'(h2 ▸ hi)).length := by
    have := congrArg (fun l => l[i]?) h.shape
    simpa [hi, h2 ▸ hi] using this
  rw [hl]
  exact hp.inside _ (List.getElem_mem _) p hpp q hq

/-- **C137** cutting cells of any kind into pieces, by the tables of the library or any other. -/
theorem C137_cut (h : SameCells c t c' t') {path : Topo} {n : Nat} (hp : PathOK t path n) :
    ∃ s s', transformTopology t path n 0 = some s ∧ transformTopology t' path n 0 = some s' ∧ SameCells c s c' s' := by
  refine ⟨_, _, transformTopology_eq hp, transformTopology_eq (h.pathOK hp), sameCells_of_rows ?_⟩
  have h1 := hp.inside
  unfold transformed
  have hr := h.rows
  clear h hp
  induction hr with
  | nil => exact .nil
  | @cons r r' u u' hrr _ ih =>
    rw [List.flatMap_cons, List.flatMap_cons]
    refine List.rel_append ?_ (ih fun cell hc => h1 cell (List.mem_cons_of_mem _ hc))
    have h2 := h1 r List.mem_cons_self
    clear ih h1
    induction path with
    | nil => exact .nil
    | cons p path ih =>
      refine .cons ?_ (ih fun q hq => h2 q (List.mem_cons_of_mem _ hq))
      have h3 := h2 p List.mem_cons_self
      clear ih h2
      induction p with
      | nil => exact .nil
      | cons q p ih =>
        refine .cons ?_ (ih fun x hx => h3 x (List.mem_cons_of_mem _ hx))
        have hq := h3 q List.mem_cons_self
        rcases hrr.get q with ⟨h4, -⟩ | ⟨a, a', x, h4, h5, h6, h7⟩
        · rw [List.getElem?_eq_none_iff] at h4
          omega
        · refine ⟨x, ?_, ?_⟩
          · show c[r.getD q 0]? = some x
            rw [List.getD_eq_getElem?_getD, h4]; exact h6
          · show c'[r'.getD q 0]? = some x
            rw [List.getD_eq_getElem?_getD, h5]; exact h7

end

/-! ## points in cells -/

section
variable {K : Type} [Field K] [LinearOrder K]

omit [Field K] [LinearOrder K] in
theorem SameRow.tet {c c' : List (V3 K)} {r r' : List Nat} (h : SameRow c c' r r') : tetOf c r = tetOf c' r' := by
  cases h with
  | nil => rfl
  | cons h1 h => cases h with
    | nil => rfl
    | cons h2 h => cases h with
      | nil => rfl
      | cons h3 h => cases h with
        | nil => rfl
        | cons h4 h => cases h with
          | nil =>
            obtain ⟨p1, a1, b1⟩ := h1
            obtain ⟨p2, a2, b2⟩ := h2
            obtain ⟨p3, a3, b3⟩ := h3
            obtain ⟨p4, a4, b4⟩ := h4
            simp only [tetOf, a1, a2, a3, a4, b1, b2, b3, b4]
          | cons h5 h => rfl

omit [Field K] [LinearOrder K] in
theorem SameRow.tri {c c' : List (P2 K)} {r r' : List Nat} (h : SameRow c c' r r') : triOf c r = triOf c' r' := by
  cases h with
  | nil => rfl
  | cons h1 h => cases h with
    | nil => rfl
    | cons h2 h => cases h with
      | nil => rfl
      | cons h3 h => cases h with
        | nil =>
          obtain ⟨p1, a1, b1⟩ := h1
          obtain ⟨p2, a2, b2⟩ := h2
          obtain ⟨p3, a3, b3⟩ := h3
          simp only [triOf, a1, a2, a3, b1, b2, b3]
        | cons h4 h => rfl

/-- **C137** locating points in solid cells. -/
theorem C137_locate {c c' : List (V3 K)} {t t' : Topo} (h : SameCells c t c' t') (sched : List (Nat × Nat) → List (Nat × Nat)) (tetmap : Topo)
    (lcoords : List (V3 K)) (nb : List (List Nat)) (tol : K) (x : List (V3 K)) :
    locate sched c t tetmap lcoords nb tol x = locate sched c' t' tetmap lcoords nb tol x ∧
    locateAll sched c t tetmap lcoords tol x = locateAll sched c' t' tetmap lcoords tol x := by
  have key : ∀ nb, locate sched c t tetmap lcoords nb tol x = locate sched c' t' tetmap lcoords nb tol x := by
    intro nb
    unfold locate
    refine (h.tets tetmap).bind_eq fun s s' hs => ?_
    rw [mapM_forall₂ (hs.imp fun _ _ hr => hr.tet)]
  refine ⟨key nb, ?_⟩
  unfold locateAll
  rw [h.length]
  exact key _

/-- **C137** points inside of solid cells. -/
theorem C137_inside {c c' : List (V3 K)} {t t' : Topo} (h : SameCells c t c' t') {tetmap : Topo} (hp : PathOK t tetmap 4) (nb : List (List Nat)) (tol : K)
    (x : List (V3 K)) : pipCells3d c t tetmap nb tol x = pipCells3d c' t' tetmap nb tol x ∧
    pipCells3dAll c t tetmap tol x = pipCells3dAll c' t' tetmap tol x := by
  obtain ⟨s, s', h1, h2, h3⟩ := C137_cut h hp
  have key : ∀ nb, pipCells3d c t tetmap nb tol x = pipCells3d c' t' tetmap nb tol x := by
    intro nb
    unfold pipCells3d
    rw [h1, h2]
    simp only [Option.bind_some]
    rw [mapM_forall₂ (h3.rows.imp fun _ _ hr => hr.tet)]
  refine ⟨key nb, ?_⟩
  unfold pipCells3dAll
  rw [h.length]
  exact key _

/-- **C137** points inside of plane cells. -/
theorem C137_plane {c c' : List (P2 K)} {t t' : Topo} (h : SameCells c t c' t') {trimap : Topo} (hp : PathOK t trimap 3) (tol : K) (x : List (P2 K)) :
    pipCells2d c t trimap tol x = pipCells2d c' t' trimap tol x := by
  obtain ⟨s, s', h1, h2, h3⟩ := C137_cut h hp
  unfold pipCells2d
  rw [h1, h2]
  simp only [Option.bind_some]
  rw [mapM_forall₂ (h3.rows.imp fun _ _ hr => hr.tri)]

end

/-! ## frames, areas, Jacobians, lengths -/

section
variable {c c' : List (V3 ℝ)} {t t' : Topo}

theorem SameRow.length {α : Type} {c c' : List α} {r r' : List Nat} (h : SameRow c c' r r') : r.length = r'.length := h.length_eq

theorem SameRow.surfaceVecs {r r' : List Nat} (h : SameRow c c' r r') : surfaceVecs c r = surfaceVecs c' r' := by
  unfold PM.surfaceVecs
  rw [← h.length]
  rcases h.get 0 with ⟨h1, h2⟩ | ⟨a, a', p, h1, h2, h3, h4⟩
  · rw [h1, h2]; rfl
  · rcases h.get 1 with ⟨k1, k2⟩ | ⟨b, b', q, k1, k2, k3, k4⟩
    · rw [h1, h2, k1, k2]; rfl
    · rcases h.get (r.length - 1) with ⟨l1, l2⟩ | ⟨d, d', s, l1, l2, l3, l4⟩
      · rw [h1, h2, k1, k2, l1, l2]; rfl
      · simp only [h1, h2, k1, k2, l1, l2, Option.bind_some, h3, h4, k3, k4, l3, l4]

theorem SameRow.lineEnds {r r' : List Nat} (h : SameRow c c' r r') : lineEnds c r = lineEnds c' r' := by
  unfold PM.lineEnds
  rw [← h.length]
  rcases h.get 0 with ⟨h1, h2⟩ | ⟨a, a', p, h1, h2, h3, h4⟩
  · rw [h1, h2]; rfl
  · rcases h.get (r.length - 1) with ⟨l1, l2⟩ | ⟨d, d', s, l1, l2, l3, l4⟩
    · rw [h1, h2, l1, l2]; rfl
    · simp only [h1, h2, l1, l2, Option.bind_some, h3, h4, l3, l4]

/-- **C137** the frames of surfaces and lines, with and without points of reference. -/
theorem C137_frames (h : SameCells c t c' t') (ref : RefZ) :
    framesOfSurfaces c t = framesOfSurfaces c' t' ∧ framesOfLines c t ref = framesOfLines c' t' ref := by
  refine ⟨mapM_forall₂ (h.rows.imp fun _ _ hr => by rw [hr.surfaceVecs]), ?_⟩
  cases ref with
  | auto => exact mapM_forall₂ (h.rows.imp fun _ _ hr => by rw [hr.lineEnds])
  | one p => exact mapM_forall₂ (h.rows.imp fun _ _ hr => by rw [hr.lineEnds])
  | each rs =>
    refine mapM_forall₂ ?_
    obtain ⟨hl, hg⟩ := List.forall₂_iff_get.1 h.rows
    rw [List.forall₂_iff_get]
    refine ⟨by simp [hl], fun i h1 h2 => ?_⟩
    simp only [List.length_zipIdx] at h1 h2
    have := hg i h1 h2
    simp only [List.get_eq_getElem, List.getElem_zipIdx] at this ⊢
    rw [this.lineEnds]

/-- **C137** local coordinates, areas, volumes of plates, Jacobian matrices and determinants, for given frames and with the frames of the library. -/
theorem C137_areas (h : SameCells c t c' t') (frames : List Frame) (target : Option Frame) (trimap : List (List Nat)) (thickness : Option (List ℝ)) (nD nP : Nat)
    (dshp : List (List (List ℝ))) :
    localCoordinates c t frames target = localCoordinates c' t' frames target ∧
    areas2d c t frames trimap = areas2d c' t' frames trimap ∧
    areasT3 c t frames = areasT3 c' t' frames ∧
    volumes2d c t frames trimap thickness = volumes2d c' t' frames trimap thickness ∧
    jacobianMatrix nD dshp c t frames = jacobianMatrix nD dshp c' t' frames ∧
    jacobianDet nD dshp c t frames = jacobianDet nD dshp c' t' frames ∧
    lineJacobian nP c t frames = lineJacobian nP c' t' frames ∧
    ((framesOfSurfaces c t).bind fun Fs => areas2d c t Fs trimap) = (framesOfSurfaces c' t').bind fun Fs => areas2d c' t' Fs trimap := by
  have hl : ∀ frames target, localCoordinates c t frames target = localCoordinates c' t' frames target := by
    intro frames target
    unfold localCoordinates pointsOfCellsAx
    have : (t.mapM fun (row : List Nat) => row.mapM fun n => c[n]?) = t'.mapM fun (row : List Nat) => row.mapM fun n => c'[n]? := h.points
    rw [this]
  have ha : ∀ frames, areas2d c t frames trimap = areas2d c' t' frames trimap := by
    intro frames
    unfold areas2d
    rw [hl, h.length]
  refine ⟨hl _ _, ha _, ?_, ?_, ?_, ?_, ?_, ?_⟩
  · unfold areasT3
    rw [hl]
  · unfold volumes2d
    rw [ha, h.length]
  · unfold jacobianMatrix
    rw [hl]
  · unfold jacobianDet jacobianMatrix
    rw [hl]
  · unfold lineJacobian
    rw [hl]
  · rw [(C137_frames h .auto).1]
    simp only [ha]

/-- **C137** lengths and volumes of lines. -/
theorem C137_lengths (h : SameCells c t c' t') (areas : Option (List ℝ)) :
    lengthsOfLines c t = lengthsOfLines c' t' ∧ volumes1d c t areas = volumes1d c' t' areas := by
  have hl : lengthsOfLines c t = lengthsOfLines c' t' := by
    refine mapM_forall₂ (h.rows.imp fun r r' hr => ?_)
    rw [List.getLast?_eq_getElem?, List.getLast?_eq_getElem?, ← hr.length, List.head?_eq_getElem?, List.head?_eq_getElem?]
    rcases hr.get 0 with ⟨h1, h2⟩ | ⟨a, a', p, h1, h2, h3, h4⟩
    · rw [h1, h2]; simp
    · rcases hr.get (r.length - 1) with ⟨l1, l2⟩ | ⟨d, d', s, l1, l2, l3, l4⟩
      · rw [l1, l2]; rfl
      · simp only [h1, h2, l1, l2, Option.bind_some, h3, h4, l3, l4]
  refine ⟨hl, ?_⟩
  unfold volumes1d
  rw [hl, h.length]

end

section
variable {K : Type} [Field K]

/-- **C137** the points and the centres of the cells. -/
theorem C137_centers {c c' : List (V3 K)} {t t' : Topo} (h : SameCells c t c' t') (ids : List Nat) (cells : Option (List Nat)) :
    centresBulk c t = centresBulk c' t' ∧ pointsOfCells c ids t cells = pointsOfCells c' ids t' cells := by
  refine ⟨mapM_forall₂ (h.rows.imp fun _ _ hr => by rw [hr.gather]), ?_⟩
  have hs : BothOr (List.Forall₂ (SameRow c c')) (selectRows ids t cells) (selectRows ids t' cells) := by
    unfold selectRows
    cases cells with
    | none => exact .inr ⟨t, t', rfl, rfl, h.rows⟩
    | some cs =>
      simp only
      split
      · exact .inl ⟨rfl, rfl⟩
      · generalize cs.filter _ = l
        refine mapM_bothOr ?_
        obtain ⟨hl, hg⟩ := List.forall₂_iff_get.1 h.rows
        induction l with
        | nil => exact .nil
        | cons k l ih =>
          refine .cons ?_ ih
          by_cases hk : k < t.length
          · exact .inr ⟨t[k], t'[k]'(hl ▸ hk), by simp [hk], by simp [hl ▸ hk], hg k hk (hl ▸ hk)⟩
          · refine .inl ?_
            simp only [List.getElem?_eq_none_iff]
            omega
  unfold pointsOfCells
  exact hs.bind_eq fun a b hab => mapM_forall₂ (hab.imp fun _ _ hr => hr.gather)

end

/-! ## cells of higher order -/

section
variable {K : Type} [Field K]

omit [Field K] in
theorem SameCells.meshOK {c c' : List (V3 K)} {t t' : Topo} (h : SameCells c t c' t') {n : Nat} (hM : MeshOK c t n) : MeshOK c' t' n := by
  obtain ⟨hl, hg⟩ := List.forall₂_iff_get.1 h.rows
  refine ⟨fun r' hr' => ?_, fun r' hr' x hx => ?_⟩
  · obtain ⟨i, hi, rfl⟩ := List.mem_iff_getElem.1 hr'
    have := hg i (hl ▸ hi) hi
    rw [← hM.len _ (List.getElem_mem (hl ▸ hi : i < t.length))]
    exact this.length.symm
  · obtain ⟨i, hi, rfl⟩ := List.mem_iff_getElem.1 hr'
    obtain ⟨j, hj, rfl⟩ := List.mem_iff_getElem.1 hx
    obtain ⟨hl2, hg2⟩ := List.forall₂_iff_get.1 (hg i (hl ▸ hi) hi)
    simp only [List.get_eq_getElem] at hl2 hg2
    obtain ⟨p, -, h2⟩ := hg2 j (hl2 ▸ hj) hj
    exact (List.getElem?_eq_some_iff.1 h2).1

theorem SameRow.ptsOf {c c' : List (V3 K)} {r r' : List Nat} (h : SameRow c c' r r') {m : List Nat} (hm : ∀ q ∈ m, q < r.length) :
    ptsOf c (m.map fun q => r.getD q 0) = ptsOf c' (m.map fun q => r'.getD q 0) := by
  unfold PM.ptsOf
  rw [List.map_map, List.map_map]
  refine List.map_congr_left fun q hq => ?_
  have hq := hm q hq
  rcases h.get q with ⟨h4, -⟩ | ⟨a, a', x, h4, h5, h6, h7⟩
  · rw [List.getElem?_eq_none_iff] at h4
    omega
  · simp only [Function.comp, List.getD_eq_getElem?_getD, h4, h5, Option.getD_some, h6, h7]

theorem SameRow.ptsOf_all {c c' : List (V3 K)} {r r' : List Nat} (h : SameRow c c' r r') : PM.ptsOf c r = PM.ptsOf c' r' := by
  unfold PM.ptsOf
  induction h with
  | nil => rfl
  | cons h1 _ ih =>
    obtain ⟨p, h2, h3⟩ := h1
    rw [List.map_cons, List.map_cons, ih]
    simp only [List.getD_eq_getElem?_getD, h2, h3]

theorem elevated_same {c c' C C' : List (V3 K)} {t t' T T' : Topo} (h : SameCells c t c' t') {n : Nat} (hM : MeshOK c t n)
    {tables : List (List (List Nat))} (ht : ∀ tab ∈ tables, ∀ r ∈ tab, ∀ q ∈ r, q < n) (h1 : Elevated c t n tables C T) (h2 : Elevated c' t' n tables C' T')
    {i j m : Nat} (hj : j < n + (tables.map List.length).sum) (hm : nodeAt T i j = some m) :
    ∃ m' p, nodeAt T' i j = some m' ∧ C[m]? = some p ∧ C'[m']? = some p := by
  have hM' := h.meshOK hM
  have hi : i < t.length := by rw [← h1.cells]; exact nodeAt_lt hm
  obtain ⟨hl, hg⟩ := List.forall₂_iff_get.1 h.rows
  have hi' : i < t'.length := hl ▸ hi
  have hrow : SameRow c c' t[i] t'[i] := hg i hi hi'
  by_cases hjn : j < n
  · rw [h1.corners i j hjn] at hm
    obtain ⟨m', p, h3, h4, h5⟩ := h.place i j m hm
    refine ⟨m', p, by rw [h2.corners i j hjn, h3], ?_, ?_⟩
    · rw [h1.pts m (List.getElem?_eq_some_iff.1 h4).1, h4]
    · rw [h2.pts m' (List.getElem?_eq_some_iff.1 h5).1, h5]
  · obtain ⟨k, e, tab, hk, he, hke⟩ := exists_column tables (j - n) (by omega)
    have hj' : n + ((tables.take k).map List.length).sum + e = j := by omega
    obtain ⟨a, -, a2, a3⟩ := h1.place k e i tab t[i] hk he (List.getElem?_eq_getElem hi)
    obtain ⟨b, -, b2, b3⟩ := h2.place k e i tab t'[i] hk he (List.getElem?_eq_getElem hi')
    rw [hj'] at a2 b2
    rw [hm] at a2
    obtain rfl := Option.some.inj a2
    refine ⟨b, _, b2, a3, ?_⟩
    rw [b3]
    unfold entNodes
    rw [hrow.ptsOf]
    intro q hq
    rw [hM.len _ (List.getElem_mem hi)]
    refine ht tab (List.mem_of_getElem? hk) (tab.getD e []) ?_ q hq
    rw [List.getD_eq_getElem?_getD, List.getElem?_eq_getElem he]
    exact List.getElem_mem he

/-- **C137** raising the order of the cells, with any tables of edges and faces and with or without nodes at the centres: the cells of higher order are the
same. -/
theorem C137_elevate {c c' : List (V3 K)} {t t' : Topo} (h : SameCells c t c' t') {n : Nat} (hM : MeshOK c t n)
    {tables : List (List (List Nat))} (ht : ∀ tab ∈ tables, ∀ r ∈ tab, ∀ q ∈ r, q < n) :
    (∃ C T C' T', elevate tables c t = some (C, T) ∧ elevate tables c' t' = some (C', T') ∧ SameCells C T C' T') ∧
    ∃ C T C' T', elevateC tables c t = some (C, T) ∧ elevateC tables c' t' = some (C', T') ∧ SameCells C T C' T' := by
  have hM' := h.meshOK hM
  have shape : ∀ (T T' : Topo) (w : Nat), T.length = t.length → T'.length = t'.length → (∀ r ∈ T, r.length = w) → (∀ r ∈ T', r.length = w) →
      T'.map List.length = T.map List.length := by
    intro T T' w h1 h2 h3 h4
    rw [List.map_congr_left h3, List.map_congr_left h4, List.map_const', List.map_const', h1, h2, h.length]
  constructor
  · obtain ⟨C, T, e1, k1, w1, -, -⟩ := elevate_ok hM ht
    obtain ⟨C', T', e2, k2, w2, -, -⟩ := elevate_ok hM' ht
    refine ⟨C, T, C', T', e1, e2, shape T T' _ k1.cells k2.cells w1 w2, fun i j m hm => ?_⟩
    obtain ⟨r, hr, hj⟩ := Option.bind_eq_some_iff.1 hm
    refine elevated_same h hM ht k1 k2 ?_ hm
    rw [← w1 r (List.mem_of_getElem? hr)]
    exact (List.getElem?_eq_some_iff.1 hj).1
  · obtain ⟨C, T, e1, k1, z1, w1, -, -⟩ := elevateC_ok hM ht
    obtain ⟨C', T', e2, k2, z2, w2, -, -⟩ := elevateC_ok hM' ht
    refine ⟨C, T, C', T', e1, e2, shape T T' _ k1.cells k2.cells w1 w2, fun i j m hm => ?_⟩
    obtain ⟨r, hr, hj⟩ := Option.bind_eq_some_iff.1 hm
    have hj2 := (List.getElem?_eq_some_iff.1 hj).1
    rw [w1 r (List.mem_of_getElem? hr)] at hj2
    by_cases hjl : j < n + (tables.map List.length).sum
    · exact elevated_same h hM ht k1 k2 hjl hm
    · obtain rfl : j = n + (tables.map List.length).sum := by omega
      have hi : i < t.length := by rw [← k1.cells]; exact nodeAt_lt hm
      obtain ⟨hl, hg⟩ := List.forall₂_iff_get.1 h.rows
      have hi' : i < t'.length := hl ▸ hi
      have hrow : SameRow c c' t[i] t'[i] := hg i hi hi'
      obtain ⟨a, -, a2, a3, -⟩ := z1 i t[i] (List.getElem?_eq_getElem hi)
      obtain ⟨b, -, b2, b3, -⟩ := z2 i t'[i] (List.getElem?_eq_getElem hi')
      rw [hm] at a2
      obtain rfl := Option.some.inj a2
      exact ⟨b, _, b2, a3, by rw [b3, hrow.ptsOf_all]⟩

end

/-! ## what leads to the same cells -/

section
variable {α : Type}

/-- **C137** detaching keeps the cells. -/
theorem C137_detach (coords : List α) (topo : Topo) (h : ∀ n, UsesNode topo n → n < coords.length) :
    ∃ c t, detach coords topo none = some (c, t) ∧ SameCells coords topo c t := by
  obtain ⟨c, t, ids, h1, -, -, -, -, h2, -, h3⟩ := C04_detach coords topo h
  refine ⟨c, t, h1, h2, fun i j n hn => ?_⟩
  obtain ⟨k, h4, h5⟩ := h3 i j n hn
  obtain ⟨r, hr, hj⟩ := Option.bind_eq_some_iff.1 hn
  have hlt := h n ⟨r, List.mem_of_getElem? hr, List.mem_of_getElem? hj⟩
  exact ⟨k, coords[n], h4, List.getElem?_eq_getElem hlt, by rw [h5, List.getElem?_eq_getElem hlt]⟩

/-- **C137** renumbering the nodes and rearranging the points accordingly keeps the cells. -/
theorem C137_renumber {coords c' : List α} {topo t' : Topo} {imap : IMap} (h : ∀ n, UsesNode topo n → n < coords.length)
    (hr : rewire topo imap false = some t') (hc : ∀ n m, UsesNode topo n → imap.get? n = some m → c'[m]? = coords[n]?) :
    SameCells coords topo c' t' := by
  obtain ⟨h1, h2⟩ := (C03_rewire topo imap).2 t' hr
  refine ⟨h1, fun i j n hn => ?_⟩
  obtain ⟨m, h3, h4⟩ := h2 i j n hn
  obtain ⟨r, hr, hj⟩ := Option.bind_eq_some_iff.1 hn
  have hu : UsesNode topo n := ⟨r, List.mem_of_getElem? hr, List.mem_of_getElem? hj⟩
  exact ⟨m, coords[n]'(h n hu), h4, List.getElem?_eq_getElem _, by rw [hc n m hu h3, List.getElem?_eq_getElem (h n hu)]⟩

/-- **C137** regular numbers with the points that are in use keep the cells. -/
theorem C137_regularize (coords : List α) (topo : Topo) (h : ∀ n, UsesNode topo n → n < coords.length) :
    ∃ c', gather? coords (regularize topo).2 = some c' ∧ SameCells coords topo c' (regularize topo).1 := by
  obtain ⟨-, h2, -, h4, h5⟩ := C01_regularize topo
  obtain ⟨c', h6, -, h8⟩ := gather?_eq_some (a := coords) (inds := (regularize topo).2) fun n hn => h n ((h2 n).1 hn)
  refine ⟨c', h6, h4, fun i j n hn => ?_⟩
  obtain ⟨k, h9, h10⟩ := h5 i j n hn
  have hlt := h n ((h2 n).1 (List.mem_of_getElem? h10))
  exact ⟨k, coords[n], h9, List.getElem?_eq_getElem hlt, by rw [h8 k n h10, List.getElem?_eq_getElem hlt]⟩

/-- **C137** exploding keeps the cells, in whatever order the parallel loops write. -/
theorem C137_explode {coords : List α} {topo : Topo} {nNE : Nat} (hr : ∀ r ∈ topo, r.length = nNE)
    (hin : ∀ r ∈ topo, ∀ n ∈ r, n < coords.length) (zero : α) {wc : List (Nat × Option α)}
    {wt : List ((Nat × Nat) × Nat)} (hc : (explodeCoordW coords topo nNE).Perm wc) (ht : (explodeTopoW topo.length nNE).Perm wt) :
    ∃ C T, explodeWith zero topo.length nNE wc wt = some (C, T) ∧ SameCells coords topo C T := by
  obtain ⟨C, T, h1, h2⟩ := C23_explode hr hin zero hc ht
  refine ⟨C, T, h1, ?_, fun i j n hn => ?_⟩
  · rw [List.map_congr_left h2.width, List.map_congr_left hr, List.map_const', List.map_const', h2.cells]
  · obtain ⟨m, h3, h4⟩ := h2.place i j n hn
    obtain ⟨r, hr', hj⟩ := Option.bind_eq_some_iff.1 hn
    have hlt := hin r (List.mem_of_getElem? hr') n (List.mem_of_getElem? hj)
    exact ⟨m, coords[n], h3, List.getElem?_eq_getElem hlt, by rw [h4, List.getElem?_eq_getElem hlt]⟩

/-- **C137** other points that are added, and points that no cell uses, do not matter. -/
theorem C137_unused {coords c' : List α} {topo : Topo} (h : ∀ n, UsesNode topo n → n < coords.length)
    (hc : ∀ n, UsesNode topo n → c'[n]? = coords[n]?) : SameCells coords topo c' topo := by
  refine ⟨rfl, fun i j n hn => ?_⟩
  obtain ⟨r, hr, hj⟩ := Option.bind_eq_some_iff.1 hn
  have hu : UsesNode topo n := ⟨r, List.mem_of_getElem? hr, List.mem_of_getElem? hj⟩
  exact ⟨n, coords[n]'(h n hu), hn, List.getElem?_eq_getElem _, by rw [hc n hu, List.getElem?_eq_getElem (h n hu)]⟩

end

section
variable {P D : Type}

/-- **C41** the standard form keeps the cells of every block: all answers above are the same, block by block. Missing: frames that are not the ambient one
and blocks with a single point (`C41_frame_false`, `C41_single_false`). -/
theorem C41_same_partial {root : Option (Fr P)} (hroot : ∀ F, root = some F → F.Valid) (dpf dcf : Nat → D)
    {m : List (MBlock P D)} (hm : MeshTree m) (hamb : ∀ b ∈ m, ∀ x, b.frame.toAmb x = x)
    (h1 : ∀ b ∈ m, ∀ q, b.pts = some q → q.x.length ≠ 1)
    (hf : ∀ b ∈ m, ∀ q, b.pts = some q → ∀ f d, q.fields f = some d → d.length = q.x.length)
    (hc : ∀ b ∈ m, ∀ c, b.cells = some c → ∃ s q, ClosestPts m b.path s q ∧ ∀ n ∈ c.topo.flatten, n < q.x.length) :
    ∃ m' r Q, toStandardForm root dpf dcf m = some m' ∧ m'[0]? = some r ∧ r.pts = some Q ∧
      ∀ (i : Nat) (b : MBlock P D) (c : CData D) (s : MBlock P D) (q : PData P D), m[i]? = some b → b.cells = some c → ClosestPts m b.path s q →
        ∃ b' c', m'[i]? = some b' ∧ b'.cells = some c' ∧ SameCells q.x c.topo Q.x c'.topo := by
  obtain ⟨m', r, Q, e1, -, e3, e4, -, e6⟩ := C41_partial hroot dpf dcf hm hamb h1 hf hc
  refine ⟨m', r, Q, e1, e3, e4, fun i b c s q hi hb hs => ?_⟩
  obtain ⟨b', c', e7, e8, e9, e10⟩ := e6 i b c s q hi hb hs
  refine ⟨b', c', e7, e8, e9, fun k j n hn => ?_⟩
  obtain ⟨n', x, e11, e12, e13⟩ := e10 k j n hn
  exact ⟨n', x, e11, e12, e13⟩

/-- **C42** merged numbers keep the cells of every block. Missing: blocks of cells beneath blocks of cells (`C42_false`). -/
theorem C42_same_partial {m : List (MBlock P D)} (hm : MeshTree m) {q : PData P D} (hq : ptsAt m [] = some q)
    (hid : q.id = List.range q.x.length) (hf : ∀ f d, q.fields f = some d → d.length = q.x.length)
    (hflat : ∀ b ∈ m, ∀ b' ∈ m, b.cells.isSome → b'.cells.isSome → b.path <:+ b'.path → b.path = b'.path)
    (hr : ∀ b ∈ m, ∀ c, b.cells = some c → ∀ n ∈ c.topo.flatten, n < q.x.length) :
    ∃ m' Q, nummrg m = some m' ∧ ptsAt m' [] = some Q ∧ ∀ (i : Nat) (b : MBlock P D) (c : CData D), m[i]? = some b → b.cells = some c →
      ∃ b' c', m'[i]? = some b' ∧ b'.cells = some c' ∧ SameCells q.x c.topo Q.x c'.topo := by
  obtain ⟨m', Q, e1, -, e3, -, -, g, -, e6⟩ := C42_partial hm hq hid hf hflat hr
  refine ⟨m', Q, e1, e3, fun i b c hi hb => ?_⟩
  obtain ⟨b', c', e7, e8, e9, e10⟩ := e6 i b c hi hb
  refine ⟨b', c', e7, e8, e9, fun k j n hn => ?_⟩
  obtain ⟨e11, ⟨x, e12, e13⟩, -⟩ := e10 k j n hn
  exact ⟨g n, x, e11, e12, e13⟩

end

/-- Two tetrahedra with a common face, the points in another order, with one more point and with copies of shared points: the same cells, and a point is
found in the same cell. -/
example : SameCells [⟨0, 0, 0⟩, ⟨1, 0, 0⟩, ⟨0, 1, 0⟩, ⟨0, 0, 1⟩, (⟨1, 1, 1⟩ : V3 ℚ)] [[0, 1, 2, 3], [1, 2, 3, 4]]
    [⟨7, 7, 7⟩, ⟨0, 0, 1⟩, ⟨0, 0, 0⟩, ⟨0, 1, 0⟩, ⟨1, 0, 0⟩, ⟨1, 0, 0⟩, ⟨0, 1, 0⟩, ⟨1, 1, 1⟩, (⟨0, 0, 1⟩ : V3 ℚ)] [[2, 4, 3, 1], [5, 6, 8, 7]] ∧
    locateAll id [⟨0, 0, 0⟩, ⟨1, 0, 0⟩, ⟨0, 1, 0⟩, ⟨0, 0, 1⟩, (⟨1, 1, 1⟩ : V3 ℚ)] [[0, 1, 2, 3], [1, 2, 3, 4]] [[0, 1, 2, 3]]
      [⟨0, 0, 0⟩, ⟨1, 0, 0⟩, ⟨0, 1, 0⟩, ⟨0, 0, 1⟩] (1 / 1000) [⟨1 / 2, 1 / 2, 1 / 2⟩] = some [(0, 1, ⟨1 / 4, 1 / 4, 1 / 4⟩)] := by
  refine ⟨sameCells_of_rows ?_, by decide +kernel⟩
  refine .cons ?_ (.cons ?_ .nil) <;> exact .cons ⟨_, rfl, rfl⟩ (.cons ⟨_, rfl, rfl⟩ (.cons ⟨_, rfl, rfl⟩ (.cons ⟨_, rfl, rfl⟩ .nil)))

end PM
