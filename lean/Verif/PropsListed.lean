import Verif.PropsVolBlocks
import Verif.PropsSimplices
import Verif.PropsAreas
import Verif.LocateTri
import Verif.Elevate
import Mathlib.Data.List.Rotate
import Mathlib.Data.List.Permutation
/-!
C140: cells listed from another corner. Readers and other libraries list the nodes of the same cell in different orders; which answers do not
change?
-/
namespace PM

/-- The rows of two topologies list the same nodes in other orders. -/
def SameNodes (t t' : Topo) : Prop := List.Forall₂ List.Perm t t'

section
variable {α : Type}

theorem gather_perm {c : List α} {r r' : List Nat} (h : r.Perm r') {X : List α} (hX : gather? c r = some X) :
    ∃ X', gather? c r' = some X' ∧ X.Perm X' := by
  induction h generalizing X with
  | nil => exact ⟨X, hX, .refl _⟩
  | @cons a l l' _ ih =>
    simp only [gather?, List.mapM_cons, Option.bind_eq_bind, Option.pure_def, Option.bind_eq_some_iff, Option.some.injEq] at hX
    obtain ⟨p, hp, Y, hY, rfl⟩ := hX
    obtain ⟨Y', h1, h2⟩ := ih hY
    exact ⟨p :: Y', by simp only [gather?] at h1; simp [gather?, hp, h1], h2.cons p⟩
  | swap a b l =>
    simp only [gather?, List.mapM_cons, Option.bind_eq_bind, Option.pure_def, Option.bind_eq_some_iff, Option.some.injEq] at hX
    obtain ⟨p, hp, _, ⟨q, hq, Y, hY, rfl⟩, rfl⟩ := hX
    exact ⟨q :: p :: Y, by simp [gather?, hp, hq, hY], .swap _ _ _⟩
  | trans _ _ ih1 ih2 =>
    obtain ⟨Y, h1, h2⟩ := ih1 hX
    obtain ⟨Z, h3, h4⟩ := ih2 h1
    exact ⟨Z, h3, h2.trans h4⟩

theorem gather_perm_map {β : Type} {c : List α} {r r' : List Nat} (h : r.Perm r') {f : List α → β} (hf : ∀ X Y : List α, X.Perm Y → f X = f Y) :
    (gather? c r).map f = (gather? c r').map f := by
  rcases h1 : gather? c r with _ | X
  · rcases h2 : gather? c r' with _ | Y
    · rfl
    · obtain ⟨X, h3, -⟩ := gather_perm h.symm h2
      rw [h1] at h3; simp at h3
  · obtain ⟨Y, h3, h4⟩ := gather_perm h h1
    rw [h3]
    simp [hf X Y h4]

theorem mapM_same {β : Type} {R : List Nat → List Nat → Prop} {t t' : Topo} (h : List.Forall₂ R t t') {f : List Nat → Option β}
    (hf : ∀ r r', R r r' → f r = f r') : t.mapM f = t'.mapM f := by
  induction h with
  | nil => rfl
  | cons h1 _ ih => simp only [List.mapM_cons, hf _ _ h1, ih]

end

/-! ## centres and lengths -/

section
variable {K : Type} [Field K]

theorem meshCenter_perm {X Y : List (V3 K)} (h : X.Perm Y) : meshCenter X = meshCenter Y := by
  simp only [meshCenter, (h.map V3.x).sum_eq, (h.map V3.y).sum_eq, (h.map V3.z).sum_eq, h.length_eq]

/-- **C140.** Centres do not depend on the order of the nodes. -/
theorem C140_centres (x : List (V3 K)) {t t' : Topo} (h : SameNodes t t') : centresBulk x t = centresBulk x t' :=
  mapM_same h fun _ _ hr => gather_perm_map hr fun _ _ => meshCenter_perm

end

theorem vnorm_sub_comm (p q : V3 ℝ) : vnorm (p - q) = vnorm (q - p) := by
  unfold vnorm
  congr 1
  simp only [V3.dot, V3.sub_x, V3.sub_y, V3.sub_z]
  ring

/-- **C140.** Lengths of lines do not depend on the direction. -/
theorem C140_lengths (coords : List (V3 ℝ)) (t : Topo) : lengthsOfLines coords (t.map List.reverse) = lengthsOfLines coords t := by
  unfold lengthsOfLines
  rw [List.mapM_map]
  congr 1
  funext r
  simp only [Function.comp_apply, List.getLast?_reverse, List.head?_reverse]
  rcases r.head? with _ | a <;> rcases r.getLast? with _ | b <;> try rfl
  simp only [Option.bind_some]
  rcases coords[a]? with _ | p <;> rcases coords[b]? with _ | q <;> try rfl
  simp only [Option.bind_some, Option.map_some, vnorm_sub_comm]

/-! ## tetrahedra -/

section
variable {K : Type} [Field K]

/-- The tetrahedron through four points. -/
def tetThrough : List (V3 K) → Option (Tet K)
  | [a, b, c, d] => some ⟨a, b, c, d⟩
  | _ => none

omit [Field K] in
theorem tetOf_eq (coords : List (V3 K)) (r : List Nat) (hr : r.length = 4) : tetOf coords r = (gather? coords r).bind tetThrough := by
  match r, hr with
  | [a, b, c, d], _ =>
    simp only [tetOf, gather?, List.mapM_cons, List.mapM_nil]
    rcases coords[a]? with _ | p <;> rcases coords[b]? with _ | q <;> rcases coords[c]? with _ | s <;> rcases coords[d]? with _ | u <;> rfl

omit [Field K] in
/-- Properties of tetrahedra that do not depend on the order of the corners: exchanges of neighbours in the list are enough. -/
theorem tet_symm {β : Type} {f : Tet K → β} (h01 : ∀ a b c d, f ⟨a, b, c, d⟩ = f ⟨b, a, c, d⟩) (h12 : ∀ a b c d, f ⟨a, b, c, d⟩ = f ⟨a, c, b, d⟩)
    (h23 : ∀ a b c d, f ⟨a, b, c, d⟩ = f ⟨a, b, d, c⟩) {X Y : List (V3 K)} (h : X.Perm Y) :
    (tetThrough X).map f = (tetThrough Y).map f := by
  have key : ∀ (X Y : List (V3 K)), X.Perm Y → ∀ pre : List (V3 K), (tetThrough (pre ++ X)).map f = (tetThrough (pre ++ Y)).map f := by
    intro X Y h
    induction h with
    | nil => intro pre; rfl
    | cons a _ ih => intro pre; simpa using ih (pre ++ [a])
    | swap a b l =>
      intro pre
      match pre, l with
      | [], [] => rfl
      | [], [_] => rfl
      | [], [c, d] => simp [tetThrough, h01 b a c d]
      | [], _ :: _ :: _ :: _ => rfl
      | [_], [] => rfl
      | [p], [d] => simp [tetThrough, h12 p b a d]
      | [_], _ :: _ :: _ => rfl
      | [p, q], [] => simp [tetThrough, h23 p q b a]
      | [_, _], _ :: _ => rfl
      | [_, _, _], l => rfl
      | _ :: _ :: _ :: _ :: pre, l => simp [tetThrough]
    | trans _ _ ih1 ih2 => intro pre; rw [ih1, ih2]
  simpa using key X Y h []

omit [Field K] in
theorem tetOf_symm {β : Type} {f : Tet K → β} (h01 : ∀ a b c d, f ⟨a, b, c, d⟩ = f ⟨b, a, c, d⟩) (h12 : ∀ a b c d, f ⟨a, b, c, d⟩ = f ⟨a, c, b, d⟩)
    (h23 : ∀ a b c d, f ⟨a, b, c, d⟩ = f ⟨a, b, d, c⟩) (coords : List (V3 K)) {r r' : List Nat} (h : r.Perm r') :
    (tetOf coords r).map f = (tetOf coords r').map f := by
  by_cases hr : r.length = 4
  · rw [tetOf_eq _ _ hr, tetOf_eq _ _ (h.length_eq ▸ hr), Option.map_bind, Option.map_bind]
    have := gather_perm_map (c := coords) h (f := fun X => (tetThrough X).map f) fun X Y hXY => tet_symm h01 h12 h23 hXY
    rcases h1 : gather? coords r with _ | X <;> rcases h2 : gather? coords r' with _ | Y <;> rw [h1, h2] at this <;> simp at this
    simpa using this
  · have hn : ∀ s : List Nat, s.length ≠ 4 → tetOf coords s = none := by
      intro s hs
      unfold tetOf
      split
      · exact absurd rfl hs
      · rfl
    rw [hn r hr, hn r' (h.length_eq ▸ hr)]

omit [Field K] in
theorem mapM_tets_symm {β : Type} {f : Tet K → β} (h01 : ∀ a b c d, f ⟨a, b, c, d⟩ = f ⟨b, a, c, d⟩)
    (h12 : ∀ a b c d, f ⟨a, b, c, d⟩ = f ⟨a, c, b, d⟩) (h23 : ∀ a b c d, f ⟨a, b, c, d⟩ = f ⟨a, b, d, c⟩) (coords : List (V3 K)) {t t' : Topo}
    (h : SameNodes t t') : (t.mapM (tetOf coords)).map (List.map f) = (t'.mapM (tetOf coords)).map (List.map f) := by
  have e : ∀ t : Topo, (t.mapM (tetOf coords)).map (List.map f) = t.mapM fun r => (tetOf coords r).map f := by
    intro t
    induction t with
    | nil => rfl
    | cons r t ih =>
      simp only [List.mapM_cons, Option.bind_eq_bind, Option.pure_def]
      rw [← ih]
      rcases tetOf coords r with _ | x
      · rfl
      · rcases t.mapM (tetOf coords) with _ | xs <;> rfl
  rw [e, e]
  exact mapM_same h fun r r' hr => tetOf_symm h01 h12 h23 coords hr

variable [LinearOrder K] [IsStrictOrderedRing K]

/-- **C140.** Volumes of tetrahedra do not depend on the order of the nodes. -/
theorem C140_tetrahedra (coords : List (V3 K)) {t t' : Topo} (h : SameNodes t t') : volumes3d .TET4 coords t = volumes3d .TET4 coords t' := by
  have hv : ∀ (a b : Tet K), volTet a = - volTet b → |volTet a| = |volTet b| := fun a b h => by rw [h, abs_neg]
  have := mapM_tets_symm (f := fun t => |volTet t|)
    (fun a b c d => hv _ _ (by simp only [volTet, V3.dot, V3.cross, V3.sub_x, V3.sub_y, V3.sub_z]; ring))
    (fun a b c d => hv _ _ (by simp only [volTet, V3.dot, V3.cross, V3.sub_x, V3.sub_y, V3.sub_z]; ring))
    (fun a b c d => hv _ _ (by simp only [volTet, V3.dot, V3.cross, V3.sub_x, V3.sub_y, V3.sub_z]; ring)) coords h
  have e : ∀ t : Topo, volumes3d .TET4 coords t = ((t.mapM (tetOf coords)).map (List.map fun t => |volTet t|)).bind (sumBlocks t.length) := by
    intro t
    simp only [volumes3d, toTetrahedra, Option.bind_some]
    rcases t.mapM (tetOf coords) with _ | xs
    · rfl
    · simp [volTetBulk, Function.comp_def]
  rw [e, e, this, h.length_eq]

/-- The test of one point as a property of the tetrahedron. -/
theorem pipTet_swap (tol : K) (g a b c d : V3 K) (hV : volTet (⟨a, b, c, d⟩ : Tet K) ≠ 0) :
    pipTet tol (globToNatTet g ⟨a, b, c, d⟩) = pipTet tol (globToNatTet g ⟨b, a, c, d⟩) ∧
      pipTet tol (globToNatTet g ⟨a, b, c, d⟩) = pipTet tol (globToNatTet g ⟨a, c, b, d⟩) ∧
      pipTet tol (globToNatTet g ⟨a, b, c, d⟩) = pipTet tol (globToNatTet g ⟨a, b, d, c⟩) := by
  have n4 : ∀ a b c d : V3 K, volTet (⟨a, b, c, d⟩ : Tet K) ≠ 0 → globToNatTet g ⟨a, b, c, d⟩ = ⟨volTet (⟨g, b, c, d⟩ : Tet K) / volTet (⟨a, b, c, d⟩ : Tet K),
      volTet (⟨a, g, c, d⟩ : Tet K) / volTet (⟨a, b, c, d⟩ : Tet K), volTet (⟨a, b, g, d⟩ : Tet K) / volTet (⟨a, b, c, d⟩ : Tet K),
      volTet (⟨a, b, c, g⟩ : Tet K) / volTet (⟨a, b, c, d⟩ : Tet K)⟩ := by
    intro a b c d h
    have e : volTet (⟨a, b, c, g⟩ : Tet K) / volTet (⟨a, b, c, d⟩ : Tet K) = 1 - volTet (⟨g, b, c, d⟩ : Tet K) / volTet (⟨a, b, c, d⟩ : Tet K) -
        volTet (⟨a, g, c, d⟩ : Tet K) / volTet (⟨a, b, c, d⟩ : Tet K) - volTet (⟨a, b, g, d⟩ : Tet K) / volTet (⟨a, b, c, d⟩ : Tet K) := by
      field_simp
      simp only [volTet, V3.dot, V3.cross, V3.sub_x, V3.sub_y, V3.sub_z]; ring
    rw [e]; rfl
  have s01 : ∀ a b c d : V3 K, volTet (⟨b, a, c, d⟩ : Tet K) = - volTet (⟨a, b, c, d⟩ : Tet K) := fun a b c d => by
    simp only [volTet, V3.dot, V3.cross, V3.sub_x, V3.sub_y, V3.sub_z]; ring
  have s12 : ∀ a b c d : V3 K, volTet (⟨a, c, b, d⟩ : Tet K) = - volTet (⟨a, b, c, d⟩ : Tet K) := fun a b c d => by
    simp only [volTet, V3.dot, V3.cross, V3.sub_x, V3.sub_y, V3.sub_z]; ring
  have s23 : ∀ a b c d : V3 K, volTet (⟨a, b, d, c⟩ : Tet K) = - volTet (⟨a, b, c, d⟩ : Tet K) := fun a b c d => by
    simp only [volTet, V3.dot, V3.cross, V3.sub_x, V3.sub_y, V3.sub_z]; ring
  rw [n4 a b c d hV, n4 b a c d (by rw [s01]; exact neg_ne_zero.2 hV), n4 a c b d (by rw [s12]; exact neg_ne_zero.2 hV),
    n4 a b d c (by rw [s23]; exact neg_ne_zero.2 hV)]
  refine ⟨?_, ?_, ?_⟩
  · rw [s01 a b c d, s01 a g c d, s01 g b c d, s01 a b g d, s01 a b c g]
    simp only [neg_div_neg_eq, pipTet]
    rw [Bool.eq_iff_iff]
    simp only [Bool.and_eq_true, decide_eq_true_eq]
    tauto
  · rw [s12 a b c d, s12 g b c d, s12 a b g d, s12 a g c d, s12 a b c g]
    simp only [neg_div_neg_eq, pipTet]
    rw [Bool.eq_iff_iff]
    simp only [Bool.and_eq_true, decide_eq_true_eq]
    tauto
  · rw [s23 a b c d, s23 g b c d, s23 a g c d, s23 a b c g, s23 a b g d]
    simp only [neg_div_neg_eq, pipTet]
    rw [Bool.eq_iff_iff]
    simp only [Bool.and_eq_true, decide_eq_true_eq]
    tauto

/-- **C140.** Whether a point is inside of a tetrahedron does not depend on the order of its corners. -/
theorem C140_inside (tol : K) (g : V3 K) {X Y : List (V3 K)} (h : X.Perm Y) {t t' : Tet K} (ht : tetThrough X = some t)
    (ht' : tetThrough Y = some t') (hV : volTet t ≠ 0) : pipTet tol (globToNatTet g t) = pipTet tol (globToNatTet g t') := by
  have s01 : ∀ a b c d : V3 K, volTet (⟨a, b, c, d⟩ : Tet K) = 0 ↔ volTet (⟨b, a, c, d⟩ : Tet K) = 0 := fun a b c d => by
    rw [show volTet (⟨b, a, c, d⟩ : Tet K) = - volTet (⟨a, b, c, d⟩ : Tet K) by
      simp only [volTet, V3.dot, V3.cross, V3.sub_x, V3.sub_y, V3.sub_z]; ring, neg_eq_zero]
  have s12 : ∀ a b c d : V3 K, volTet (⟨a, b, c, d⟩ : Tet K) = 0 ↔ volTet (⟨a, c, b, d⟩ : Tet K) = 0 := fun a b c d => by
    rw [show volTet (⟨a, c, b, d⟩ : Tet K) = - volTet (⟨a, b, c, d⟩ : Tet K) by
      simp only [volTet, V3.dot, V3.cross, V3.sub_x, V3.sub_y, V3.sub_z]; ring, neg_eq_zero]
  have s23 : ∀ a b c d : V3 K, volTet (⟨a, b, c, d⟩ : Tet K) = 0 ↔ volTet (⟨a, b, d, c⟩ : Tet K) = 0 := fun a b c d => by
    rw [show volTet (⟨a, b, d, c⟩ : Tet K) = - volTet (⟨a, b, c, d⟩ : Tet K) by
      simp only [volTet, V3.dot, V3.cross, V3.sub_x, V3.sub_y, V3.sub_z]; ring, neg_eq_zero]
  have := tet_symm (f := fun t : Tet K => if volTet t = 0 then none else some (pipTet tol (globToNatTet g t)))
    (fun a b c d => by
      by_cases hz : volTet (⟨a, b, c, d⟩ : Tet K) = 0
      · simp only [hz, (s01 a b c d).1 hz, if_true]
      · have hz' := mt (s01 a b c d).2 hz
        simp only [hz, hz', if_false]; rw [(pipTet_swap tol g a b c d hz).1])
    (fun a b c d => by
      by_cases hz : volTet (⟨a, b, c, d⟩ : Tet K) = 0
      · simp only [hz, (s12 a b c d).1 hz, if_true]
      · have hz' := mt (s12 a b c d).2 hz
        simp only [hz, hz', if_false]; rw [(pipTet_swap tol g a b c d hz).2.1])
    (fun a b c d => by
      by_cases hz : volTet (⟨a, b, c, d⟩ : Tet K) = 0
      · simp only [hz, (s23 a b c d).1 hz, if_true]
      · have hz' := mt (s23 a b c d).2 hz
        simp only [hz, hz', if_false]; rw [(pipTet_swap tol g a b c d hz).2.2]) h
  rw [ht, ht'] at this
  simp only [Option.map_some, Option.some.injEq, hV, if_false] at this
  by_cases hz : volTet t' = 0
  · simp [hz] at this
  · simpa [hz] using this

theorem transformed_self {t : Topo} (h : ∀ r ∈ t, r.length = 4) : transformed t [[0, 1, 2, 3]] 0 = t := by
  unfold transformed
  have : ∀ c ∈ t, ([[0, 1, 2, 3]].map fun p : List Nat => p.map fun q => c.getD q 0) = [c] := by
    intro c hc
    have hl := h c hc
    match c, hl with
    | [a, b, d, e], _ => rfl
  rw [List.flatMap_congr this]
  simp

/-- **C140.** Which points are inside of a block of tetrahedra does not depend on the order of the nodes in the cells. -/
theorem C140_inside_block (tol : K) (coords : List (V3 K)) {t t' : Topo} (h : SameNodes t t') (h4 : ∀ r ∈ t, r.length = 4) {tets : List (Tet K)}
    (ht : t.mapM (tetOf coords) = some tets) (hV : ∀ T ∈ tets, volTet T ≠ 0) (x : List (V3 K)) :
    pipCells3dAll coords t [[0, 1, 2, 3]] tol x = pipCells3dAll coords t' [[0, 1, 2, 3]] tol x := by
  have h4' : ∀ r ∈ t', r.length = 4 := by
    intro r' hr'
    obtain ⟨i, hi⟩ := List.getElem?_of_mem hr'
    have hil : i < t.length := by rw [h.length_eq]; exact (List.getElem?_eq_some_iff.1 hi).1
    have := (List.forall₂_iff_get.1 h).2 i hil (List.getElem?_eq_some_iff.1 hi).1
    rw [← (List.getElem?_eq_some_iff.1 hi).2]
    exact this.length_eq ▸ h4 _ (List.getElem_mem hil)
  have fits : ∀ t : Topo, (∀ r ∈ t, r.length = 4) → ∀ r ∈ t, MapFits [[0, 1, 2, 3]] r := by
    intro t h r hr
    unfold MapFits
    rw [h r hr]
    decide
  rw [pipCells3dAll_eq _ _ _ (by simp) (fits t h4), pipCells3dAll_eq _ _ _ (by simp) (fits t' h4'), transformed_self h4, transformed_self h4', ht]
  obtain ⟨tets', ht'⟩ : ∃ tets', t'.mapM (tetOf coords) = some tets' := by
    have := mapM_tets_symm (f := fun _ => ()) (fun _ _ _ _ => rfl) (fun _ _ _ _ => rfl) (fun _ _ _ _ => rfl) coords h
    rw [ht] at this
    rcases h' : t'.mapM (tetOf coords) with _ | tets'
    · rw [h'] at this; simp at this
    · exact ⟨tets', rfl⟩
  rw [ht']
  simp only [Option.map_some, Option.some.injEq]
  have hF : List.Forall₂ (fun T T' => ∀ g, pipTet tol (globToNatTet g T) = pipTet tol (globToNatTet g T')) tets tets' := by
    have hl := mapM_length ht
    have hl' := mapM_length ht'
    rw [List.forall₂_iff_get]
    refine ⟨by rw [hl, hl', h.length_eq], fun i h1 h2 g => ?_⟩
    have h3 : i < t.length := by omega
    have h3' : i < t'.length := by omega
    obtain ⟨T, e1, e2⟩ := mapM_get ht (List.getElem?_eq_getElem h3)
    obtain ⟨T', e1', e2'⟩ := mapM_get ht' (List.getElem?_eq_getElem h3')
    rw [List.getElem?_eq_getElem h1, Option.some.injEq] at e2
    rw [List.getElem?_eq_getElem h2, Option.some.injEq] at e2'
    subst e2; subst e2'
    have hp := (List.forall₂_iff_get.1 h).2 i h3 h3'
    rw [tetOf_eq _ _ (h4 _ (List.getElem_mem h3)), Option.bind_eq_some_iff] at e1
    rw [tetOf_eq _ _ (h4' _ (List.getElem_mem h3')), Option.bind_eq_some_iff] at e1'
    obtain ⟨X, x1, x2⟩ := e1
    obtain ⟨X', x1', x2'⟩ := e1'
    obtain ⟨Y, y1, y2⟩ := gather_perm hp x1
    simp only [List.get_eq_getElem] at y1
    rw [x1'] at y1
    obtain rfl := Option.some.inj y1
    exact C140_inside tol g y2 x2 x2' (hV _ (List.getElem_mem h1))
  apply List.map_congr_left
  intro g _
  clear ht ht' hV
  induction hF with
  | nil => rfl
  | cons h1 _ ih => rw [List.any_cons, List.any_cons, h1 g, ih]

end

/-! ## hexahedra -/

/-- The row `r` listed in the order `p`. -/
def listed (p r : List Nat) : List Nat := p.map fun q => r.getD q 0

/-- A quarter turn around the vertical axis. -/
def turnSide : List Nat := [1, 2, 3, 0, 5, 6, 7, 4]
/-- A quarter turn around the first axis. -/
def turnOver : List Nat := [3, 2, 6, 7, 0, 1, 5, 4]
/-- Left and right exchanged. -/
def mirrorHex : List Nat := [1, 0, 3, 2, 5, 4, 7, 6]

/-- Orders that list the corners of a hexahedron after turning it. -/
inductive HexTurn : List Nat → Prop
  | rest : HexTurn (List.range 8)
  | side {p} : HexTurn p → HexTurn (listed turnSide p)
  | over {p} : HexTurn p → HexTurn (listed turnOver p)

/-- The corners at the other ends of the edges of a corner. -/
def hexNeighbours (a : Nat) : List Nat :=
  edgeIdsH8.flatMap fun e => if e.getD 0 0 = a then [e.getD 1 0] else if e.getD 1 0 = a then [e.getD 0 0] else []

/-- An order of the corners that keeps edges edges and the sense of rotation of the corner with its three edges. -/
def KeepsHex (p : List Nat) : Prop :=
  p.length = 8 ∧ (∀ q ∈ p, q < 8) ∧ (∀ e ∈ edgeIdsH8, p.getD (e.getD 1 0) 0 ∈ hexNeighbours (p.getD (e.getD 0 0) 0)) ∧ p.Nodup ∧
    0 < V3.det3 (lcH8.getD (p.getD 1 0) 0 - lcH8.getD (p.getD 0 0) 0) (lcH8.getD (p.getD 3 0) 0 - lcH8.getD (p.getD 0 0) 0)
      (lcH8.getD (p.getD 4 0) 0 - lcH8.getD (p.getD 0 0) 0)

instance (p : List Nat) : Decidable (KeepsHex p) := by unfold KeepsHex; infer_instance

/-- Turns one after the other. -/
def hexWord : List Bool → List Nat
  | [] => List.range 8
  | b :: w => listed (if b then turnSide else turnOver) (hexWord w)

theorem hexWord_turn (w : List Bool) : HexTurn (hexWord w) := by
  induction w with
  | nil => exact .rest
  | cons b w ih =>
    cases b
    · exact .over ih
    · exact .side ih

/-- Words for all turns: six faces to the front, four turns each. -/
def hexTurns : List (List Nat) :=
  ([[], [false], [false, false], [false, false, false], [false, true], [false, true, true, true]].flatMap fun w =>
    [[], [true], [true, true], [true, true, true]].map fun v => hexWord (v ++ w))

theorem hexTurns_closed : ∀ p ∈ hexTurns, listed turnSide p ∈ hexTurns ∧ listed turnOver p ∈ hexTurns := by decide +kernel

theorem hexTurn_iff (p : List Nat) : HexTurn p ↔ p ∈ hexTurns := by
  constructor
  · intro h
    induction h with
    | rest => decide +kernel
    | side _ ih => exact (hexTurns_closed _ ih).1
    | over _ ih => exact (hexTurns_closed _ ih).2
  · intro h
    simp only [hexTurns, List.mem_flatMap, List.mem_map] at h
    obtain ⟨w, -, v, -, rfl⟩ := h
    exact hexWord_turn _

set_option synthInstance.maxHeartbeats 2000000 in
set_option synthInstance.maxSize 2000 in
theorem hexKeep_all : ∀ a ∈ List.range 8, ∀ b ∈ hexNeighbours a, ∀ d ∈ hexNeighbours a, b ≠ d → ∀ e ∈ hexNeighbours a, b ≠ e → d ≠ e →
    ∀ c ∈ hexNeighbours b, c ≠ a → d ∈ hexNeighbours c → ∀ f ∈ hexNeighbours b, f ≠ a → f ∈ hexNeighbours e →
    ∀ h ∈ hexNeighbours d, h ≠ a → h ∈ hexNeighbours e → ∀ g ∈ hexNeighbours c, g ≠ b → g ≠ d →
    KeepsHex [a, b, c, d, e, f, g, h] → [a, b, c, d, e, f, g, h] ∈ hexTurns := by
  decide +kernel

theorem hexNeighbours_symm : ∀ a ∈ List.range 8, ∀ b ∈ hexNeighbours a, a ∈ hexNeighbours b := by decide +kernel

/-- **C140.** The 24 turns are exactly the orders that keep edges and orientation. -/
theorem C140_turns (p : List Nat) : (HexTurn p ↔ KeepsHex p) ∧ hexTurns.Nodup ∧ hexTurns.length = 24 := by
  refine ⟨?_, by decide +kernel, by decide +kernel⟩
  rw [hexTurn_iff]
  constructor
  · have : ∀ p ∈ hexTurns, KeepsHex p := by decide +kernel
    exact this p
  · intro h
    have h' := h
    obtain ⟨hl, hr, he, hn, -⟩ := h
    match p, hl with
    | [a, b, c, d, e, f, g, h], _ =>
      simp only [edgeIdsH8, List.forall_mem_cons, List.getD_cons_zero, List.getD_cons_succ] at he
      obtain ⟨e1, e2, e3, e4, e5, e6, e7, e8, e9, e10, e11, e12, -⟩ := he
      have m : ∀ x ∈ [a, b, c, d, e, f, g, h], x ∈ List.range 8 := fun x hx => List.mem_range.2 (hr x hx)
      have ss : ∀ x y, x ∈ [a, b, c, d, e, f, g, h] → y ∈ hexNeighbours x → x ∈ hexNeighbours y := fun x y hx hy =>
        hexNeighbours_symm x (m x hx) y hy
      simp only [List.nodup_cons, List.mem_cons, not_or, List.not_mem_nil, not_false_eq_true, and_true] at hn
      obtain ⟨⟨n1, n2, n3, n4, n5, n6, n7⟩, ⟨m1, m2, m3, m4, m5, m6⟩, ⟨k1, k2, k3, k4, k5⟩, ⟨j1, j2, j3, j4⟩, -⟩ := hn
      exact hexKeep_all a (m a (by simp)) b e1 d (ss d a (by simp) e4) m2 e e9 m3 j1 c e2 (Ne.symm n2) e3 f e10 (Ne.symm n5)
        e5 h e12 (Ne.symm n7) (ss h e (by simp) e8) g e11 (Ne.symm m5) (Ne.symm j3) h'

section
variable {K : Type} [Field K]

theorem hexVol12_side (X : Nat → V3 K) : hexVol12 (fun i => X (turnSide.getD i 0)) = hexVol12 X := by
  simp only [hexVol12, flux4, turnSide, List.getD_cons_zero, List.getD_cons_succ, V3.det3]
  ring

theorem hexVol12_over (X : Nat → V3 K) : hexVol12 (fun i => X (turnOver.getD i 0)) = hexVol12 X := by
  simp only [hexVol12, flux4, turnOver, List.getD_cons_zero, List.getD_cons_succ, V3.det3]
  ring

theorem hexVol12_mirror (X : Nat → V3 K) : hexVol12 (fun i => X (mirrorHex.getD i 0)) = - hexVol12 X := by
  simp only [hexVol12, flux4, mirrorHex, List.getD_cons_zero, List.getD_cons_succ, V3.det3]
  ring

theorem hexVol12_congr {X Y : Nat → V3 K} (h : ∀ i < 8, X i = Y i) : hexVol12 X = hexVol12 Y := by
  simp only [hexVol12, h 0 (by omega), h 1 (by omega), h 2 (by omega), h 3 (by omega), h 4 (by omega), h 5 (by omega), h 6 (by omega),
    h 7 (by omega)]

theorem listed_get (p r : List Nat) {i : Nat} (hi : i < p.length) : (listed p r).getD i 0 = r.getD (p.getD i 0) 0 := by
  simp [listed, List.getD_eq_getElem?_getD, List.getElem?_eq_getElem hi]

theorem HexTurn.length {p : List Nat} (h : HexTurn p) : p.length = 8 := by
  cases h <;> rfl

/-- The volume enclosed by the faces does not change by turning. -/
theorem hexVol12_turn {p : List Nat} (h : HexTurn p) (X : Nat → V3 K) : hexVol12 (fun i => X (p.getD i 0)) = hexVol12 X := by
  induction h with
  | rest => exact hexVol12_congr fun i hi => by rw [List.getD_eq_getElem?_getD, List.getElem?_range hi]; rfl
  | @side p _ ih =>
    refine (hexVol12_congr fun i hi => ?_).trans ((hexVol12_side fun i => X (p.getD i 0)).trans ih)
    rw [listed_get turnSide p hi]
  | @over p _ ih =>
    refine (hexVol12_congr fun i hi => ?_).trans ((hexVol12_over fun i => X (p.getD i 0)).trans ih)
    rw [listed_get turnOver p hi]

end

/-- The cells of the second topology are those of the first one, turned. -/
def TurnedHexes (t t' : Topo) : Prop := List.Forall₂ (fun r r' => ∃ p, HexTurn p ∧ r' = listed p r) t t'

theorem HexTurn.lt {p : List Nat} (h : HexTurn p) : ∀ q ∈ p, q < 8 := ((C140_turns p).1.1 h).2.1

theorem HexTurn.perm {p : List Nat} (h : HexTurn p) {r : List Nat} (hr : r.length = 8) : (listed p r).Perm r := by
  have h1 : p.Perm (List.range 8) := by
    refine (List.perm_ext_iff_of_nodup ((C140_turns p).1.1 h).2.2.2.1 List.nodup_range).2 fun q => ?_
    rw [List.mem_range]
    refine ⟨h.lt q, fun hq => ?_⟩
    have : ∀ p ∈ hexTurns, ∀ q ∈ List.range 8, q ∈ p := by decide +kernel
    exact this p ((hexTurn_iff p).1 h) q (List.mem_range.2 hq)
  have h2 : listed (List.range 8) r = r := by
    unfold listed
    rw [← hr]
    apply List.ext_getElem
    · simp
    · intro i h1 h2
      simp [List.getD_eq_getElem?_getD, List.getElem?_eq_getElem h2]
  conv_rhs => rw [← h2]
  exact h1.map _

/-- **C140.** Volumes of hexahedra by quadrature (`H8.volumes`): cells of any shape may be turned. -/
theorem C140_H8 {order order' : Nat → List Nat → List Nat} (ho : RunsOverAll order) (ho' : RunsOverAll order') {line : List (ℝ × ℝ)}
    (hl : LineExact 2 line) {coords : List (V3 ℝ)} {t t' : Topo} (h : TurnedHexes t t') (hr : ∀ r ∈ t, NodesExist coords r ∧ r.length = 8) :
    sizesOfBlock detSpace? order Shp.dshpH8 (gaussHex line line line) coords t =
      sizesOfBlock detSpace? order' Shp.dshpH8 (gaussHex line line line) coords t' := by
  have hr' : ∀ r' ∈ t', NodesExist coords r' ∧ r'.length = 8 := by
    intro r' hr'
    obtain ⟨i, hi, rfl⟩ := List.getElem_of_mem hr'
    have hil : i < t.length := by rw [h.length_eq]; exact hi
    obtain ⟨p, hp, e⟩ := (List.forall₂_iff_get.1 h).2 i hil hi
    simp only [List.get_eq_getElem] at e
    obtain ⟨h1, h2⟩ := hr _ (List.getElem_mem hil)
    have hper := hp.perm h2
    rw [e]
    exact ⟨fun n hn => h1 n (hper.mem_iff.1 hn), by rw [hper.length_eq, h2]⟩
  rw [C139_H8 ho hl hr, C139_H8 ho' hl hr']
  congr 1
  clear hr'
  induction h with
  | nil => rfl
  | @cons r r' t t' h1 _ ih =>
    rw [List.map_cons, List.map_cons, ih fun r hr' => hr r (List.mem_cons_of_mem _ hr')]
    congr 1
    obtain ⟨p, hp, rfl⟩ := h1
    rw [← hexVol12_turn hp]
    congr 1
    apply hexVol12_congr
    intro i hi
    have h8 := (hr r List.mem_cons_self).2
    have hp8 := hp.length
    have hq : p[i]'(by omega) < r.length := by rw [h8]; exact hp.lt _ (List.getElem_mem _)
    simp [listed, List.getD_eq_getElem?_getD, List.getElem?_eq_getElem (show i < p.length by omega), List.getElem?_eq_getElem hq]

/-- **C140.** Mirrored hexahedra have the negative volume. -/
theorem C140_mirrored {order : Nat → List Nat → List Nat} (ho : RunsOverAll order) {line : List (ℝ × ℝ)} (hl : LineExact 2 line)
    {coords : List (V3 ℝ)} {r : List Nat} (hr : NodesExist coords r ∧ r.length = 8) :
    ∃ v, sizesOfBlock detSpace? order Shp.dshpH8 (gaussHex line line line) coords [r] = some [v] ∧
      sizesOfBlock detSpace? order Shp.dshpH8 (gaussHex line line line) coords [listed mirrorHex r] = some [-v] := by
  obtain ⟨h1, h2⟩ := hr
  refine ⟨_, C139_H8 ho hl (by simpa using ⟨h1, h2⟩), ?_⟩
  rw [C139_H8 ho hl (by
    intro r' hr'
    rw [List.mem_singleton] at hr'
    subst hr'
    refine ⟨?_, rfl⟩
    intro n hn
    simp only [listed, List.mem_map] at hn
    obtain ⟨q, hq, rfl⟩ := hn
    have hq8 : q < r.length := by
      rw [h2]
      have : ∀ q ∈ mirrorHex, q < 8 := by decide
      exact this q hq
    rw [List.getD_eq_getElem?_getD, List.getElem?_eq_getElem hq8]
    exact h1 _ (List.getElem_mem hq8))]
  simp only [List.map_cons, List.map_nil, Option.some.injEq, List.cons.injEq, and_true]
  rw [← neg_div, ← hexVol12_mirror]
  congr 1
  apply hexVol12_congr
  intro i hi
  have hp8 : i < mirrorHex.length := hi
  have hq : mirrorHex[i] < r.length := by
    rw [h2]
    have : ∀ q ∈ mirrorHex, q < 8 := by decide
    exact this _ (List.getElem_mem _)
  simp [listed, List.getD_eq_getElem?_getD, List.getElem?_eq_getElem hp8, List.getElem?_eq_getElem hq]

/-- **C140** is false for volumes by tetrahedra: a hexahedron with a corner that is lifted gets another volume when it is turned. -/
theorem C140_cut_false : ∃ (coords : List (V3 ℚ)) (r : List Nat) (p : List Nat), HexTurn p ∧ r = List.range 8 ∧
    volumes3d .H8 coords [r] = some [7 / 6] ∧ volumes3d .H8 coords [listed p r] = some [4 / 3] :=
  ⟨[⟨0, 0, 0⟩, ⟨1, 0, 0⟩, ⟨1, 1, 0⟩, ⟨0, 1, 0⟩, ⟨0, 0, 1⟩, ⟨1, 0, 1⟩, ⟨1, 1, 2⟩, ⟨0, 1, 1⟩], List.range 8, turnSide, .side .rest, rfl, by decide +kernel,
    by decide +kernel⟩

/-! ## edges, faces and the points of elevated meshes -/

/-- The rows of the two lists are the same, in another order and each of them in another order. -/
def SameEntities (c c' : List (List Nat)) : Prop := (∀ e ∈ c, ∃ e' ∈ c', e.Perm e') ∧ ∀ e' ∈ c', ∃ e ∈ c, e.Perm e'

theorem sortRow_perm {e e' : List Nat} (h : e.Perm e') : sortRow e = sortRow e' := by
  unfold sortRow
  refine List.Perm.eq_of_pairwise' (r := (· ≤ ·)) (List.pairwise_insertionSort _ _) (List.pairwise_insertionSort _ _) ?_
  exact ((List.perm_insertionSort _ _).trans h).trans (List.perm_insertionSort _ _).symm

theorem npUnique_ext {β : Type} [LinearOrder β] {l l' : List β} (h : ∀ x, x ∈ l ↔ x ∈ l') : npUnique l = npUnique l' := by
  refine List.Perm.eq_of_pairwise' (r := (· < ·)) (sorted_npUnique l) (sorted_npUnique l') ?_
  refine (List.perm_ext_iff_of_nodup (nodup_npUnique l) (nodup_npUnique l')).2 fun x => ?_
  rw [mem_npUnique, mem_npUnique, h]

/-- **C140.** The list of all edges (faces) of a block does not depend on how the cells are listed. -/
theorem C140_entities {ent ent' : List (List (List Nat))} (h : List.Forall₂ SameEntities ent ent') :
    (uniqueTopoData ent).1 = (uniqueTopoData ent').1 := by
  unfold uniqueTopoData
  apply npUnique_ext
  intro x
  simp only [List.mem_map, List.mem_flatten]
  have hg := List.forall₂_iff_get.1 h
  constructor
  · rintro ⟨e, ⟨c, hc, he⟩, rfl⟩
    obtain ⟨i, hi, rfl⟩ := List.getElem_of_mem hc
    obtain ⟨e', he', hp⟩ := (hg.2 i hi (by omega)).1 e he
    exact ⟨e', ⟨_, List.getElem_mem _, he'⟩, (sortRow_perm hp).symm⟩
  · rintro ⟨e', ⟨c, hc, he⟩, rfl⟩
    obtain ⟨i, hi, rfl⟩ := List.getElem_of_mem hc
    obtain ⟨e, he', hp⟩ := (hg.2 i (by omega) hi).2 e' he
    exact ⟨e, ⟨_, List.getElem_mem _, he'⟩, sortRow_perm hp⟩

/-- An order of the nodes of a cell that maps the rows of a table to rows of the table. -/
def KeepsTable (table : List (List Nat)) (p : List Nat) : Prop :=
  (∀ e ∈ table, ∀ q ∈ e, q < p.length) ∧ (∀ e ∈ table, ∃ e' ∈ table, (listed e p).Perm e') ∧ ∀ e' ∈ table, ∃ e ∈ table, (listed e p).Perm e'

instance (table : List (List Nat)) (p : List Nat) : Decidable (KeepsTable table p) := by unfold KeepsTable; infer_instance

theorem listed_entity {p r e : List Nat} (he : ∀ q ∈ e, q < p.length) : listed e (listed p r) = listed (listed e p) r := by
  unfold listed
  rw [List.map_map]
  apply List.map_congr_left
  intro q hq
  have := he q hq
  simp [List.getD_eq_getElem?_getD, List.getElem?_eq_getElem this]

theorem cellEntities_listed {table : List (List Nat)} {r : List Nat} (h : ∀ e ∈ table, ∀ q ∈ e, q < r.length) :
    cellEntities table r = some (table.map fun e => listed e r) := by
  unfold cellEntities
  apply mapM_some
  intro e he
  apply mapM_some
  intro q hq
  have := h e he q hq
  simp [List.getD_eq_getElem?_getD, List.getElem?_eq_getElem this]

/-- Cells listed in other orders, all of which keep the table. -/
def Relisted (P : List Nat → Prop) (n : Nat) (t t' : Topo) : Prop :=
  List.Forall₂ (fun r r' => r.length = n ∧ ∃ p, P p ∧ p.length = n ∧ (∀ q ∈ p, q < n) ∧ r' = listed p r) t t'

theorem entities_relisted {P : List Nat → Prop} {n : Nat} {table : List (List Nat)} (hk : ∀ p, P p → KeepsTable table p)
    (hn : ∀ e ∈ table, ∀ q ∈ e, q < n) {t t' : Topo} (h : Relisted P n t t') :
    ∃ ent ent', t.mapM (cellEntities table) = some ent ∧ t'.mapM (cellEntities table) = some ent' ∧ List.Forall₂ SameEntities ent ent' := by
  induction h with
  | nil => exact ⟨[], [], rfl, rfl, .nil⟩
  | @cons r r' t t' h1 _ ih =>
    obtain ⟨ent, ent', e1, e2, e3⟩ := ih
    obtain ⟨hr, p, hp, hpn, hlt, rfl⟩ := h1
    obtain ⟨k1, k2, k3⟩ := hk p hp
    refine ⟨_ :: ent, _ :: ent', by rw [List.mapM_cons, cellEntities_listed (r := r) (by rw [hr]; exact hn), e1]; rfl, by
      rw [List.mapM_cons, cellEntities_listed (r := listed p r) (by rw [listed, List.length_map]; exact k1), e2]; rfl, .cons ?_ e3⟩
    constructor
    · intro x hx
      obtain ⟨e', he', rfl⟩ := List.mem_map.1 hx
      obtain ⟨e, he, hperm⟩ := k3 e' he'
      refine ⟨_, List.mem_map_of_mem he, ?_⟩
      rw [listed_entity (k1 e he)]
      exact (hperm.map _).symm
    · intro x hx
      obtain ⟨e, he, rfl⟩ := List.mem_map.1 hx
      obtain ⟨e', he', hperm⟩ := k2 e he
      refine ⟨_, List.mem_map_of_mem he', ?_⟩
      rw [listed_entity (k1 e he)]
      exact (hperm.map _).symm

section
variable {K : Type} [Field K]

/-- **C140.** Conversion to more nodes: the new points do not depend on how the cells are listed. -/
theorem C140_elevate {P : List Nat → Prop} {n : Nat} {tables : List (List (List Nat))} (hk : ∀ tab ∈ tables, ∀ p, P p → KeepsTable tab p)
    (hn : ∀ tab ∈ tables, ∀ e ∈ tab, ∀ q ∈ e, q < n) (coords : List (V3 K)) {t t' : Topo} (h : Relisted P n t t') :
    (elevate tables coords t).map Prod.fst = (elevate tables coords t').map Prod.fst := by
  have go : ∀ (tables : List (List (List Nat))), (∀ tab ∈ tables, ∀ p, P p → KeepsTable tab p) → (∀ tab ∈ tables, ∀ e ∈ tab, ∀ q ∈ e, q < n) →
      ∀ nP, (elevGo coords t tables nP).map Prod.fst = (elevGo coords t' tables nP).map Prod.fst := by
    intro tables
    induction tables with
    | nil => intro _ _ nP; rfl
    | cons tab rest ih =>
      intro hk hn nP
      obtain ⟨ent, ent', e1, e2, e3⟩ := entities_relisted (hk tab (by simp)) (hn tab (by simp)) h
      have hu := C140_entities e3
      have ih' := ih (fun tab' h => hk tab' (by simp [h])) (fun tab' h => hn tab' (by simp [h]))
      simp only [elevGo, elevStep, e1, e2, Option.bind_eq_bind, Option.bind_some, Option.pure_def]
      rw [hu]
      rcases meanRows coords (uniqueTopoData ent').1 with _ | c1
      · rfl
      · simp only [Option.bind_some]
        have := ih' (nP + c1.length)
        rcases h1 : elevGo coords t rest (nP + c1.length) with _ | x <;> rcases h2 : elevGo coords t' rest (nP + c1.length) with _ | y <;>
          rw [h1, h2] at this <;> simp at this ⊢
        exact this
  have := go tables hk hn coords.length
  simp only [elevate, Option.bind_eq_bind, Option.pure_def]
  rcases h1 : elevGo coords t tables coords.length with _ | x <;> rcases h2 : elevGo coords t' tables coords.length with _ | y <;>
    rw [h1, h2] at this <;> simp at this ⊢
  exact this

/-- **C140.** The same with a node at the centre of every cell. -/
theorem C140_elevate_centre {P : List Nat → Prop} {n : Nat} {tables : List (List (List Nat))} (hk : ∀ tab ∈ tables, ∀ p, P p → KeepsTable tab p)
    (hn : ∀ tab ∈ tables, ∀ e ∈ tab, ∀ q ∈ e, q < n) (coords : List (V3 K)) {t t' : Topo} (h : Relisted P n t t') (hs : SameNodes t t') :
    (elevateC tables coords t).map Prod.fst = (elevateC tables coords t').map Prod.fst := by
  have h1 := C140_elevate hk hn coords h
  have h2 : meanRows coords t = meanRows coords t' :=
    mapM_same hs fun _ _ hr => gather_perm_map hr fun _ _ => meanPts_perm
  simp only [elevateC, Option.bind_eq_bind, Option.pure_def]
  rw [h2]
  rcases e1 : elevate tables coords t with _ | x <;> rcases e2 : elevate tables coords t' with _ | y <;> rw [e1, e2] at h1 <;> simp at h1 ⊢
  rcases meanRows coords t' with _ | cc
  · rfl
  · simp [h1]

/-- **C140.** `T3_to_T6` and `TET4_to_TET10` for any order of the nodes, `Q4_to_Q8` for any first node and both directions, and the edges and faces
of turned hexahedra. -/
theorem C140_elevated (coords : List (V3 K)) {t t' : Topo} :
    (Relisted (fun p => p.Perm [0, 1, 2]) 3 t t' → (t3ToT6 coords t).map Prod.fst = (t3ToT6 coords t').map Prod.fst) ∧
    (Relisted (fun p => p.Perm [0, 1, 2, 3]) 4 t t' → (tet4ToTet10 coords t).map Prod.fst = (tet4ToTet10 coords t').map Prod.fst) ∧
    (Relisted (fun p => p ~r [0, 1, 2, 3] ∨ p ~r [3, 2, 1, 0]) 4 t t' → (q4ToQ8 coords t).map Prod.fst = (q4ToQ8 coords t').map Prod.fst) ∧
    (Relisted (fun p => p ~r [0, 1, 2, 3] ∨ p ~r [3, 2, 1, 0]) 4 t t' → SameNodes t t' →
      (q4ToQ9 coords t).map Prod.fst = (q4ToQ9 coords t').map Prod.fst) ∧
    (Relisted HexTurn 8 t t' → (h8ToH27 coords t).map Prod.fst = (h8ToH27 coords t').map Prod.fst) := by
  have hQ : ∀ tab ∈ [edgeIdsQ4], ∀ p, p ~r [0, 1, 2, 3] ∨ p ~r [3, 2, 1, 0] → KeepsTable tab p := by
    intro tab htab p hp
    obtain rfl := List.mem_singleton.1 htab
    have h1 : ∀ p ∈ List.cyclicPermutations [0, 1, 2, 3], KeepsTable edgeIdsQ4 p := by decide +kernel
    have h2 : ∀ p ∈ List.cyclicPermutations [3, 2, 1, 0], KeepsTable edgeIdsQ4 p := by decide +kernel
    rcases hp with hp | hp
    · exact h1 p (List.mem_cyclicPermutations_iff.2 hp)
    · exact h2 p (List.mem_cyclicPermutations_iff.2 hp)
  refine ⟨fun h => C140_elevate ?_ ?_ coords h, fun h => C140_elevate ?_ ?_ coords h, fun h => C140_elevate hQ (by decide) coords h,
    fun h hs => C140_elevate_centre hQ (by decide) coords h hs, fun h => C140_elevate_centre (P := HexTurn) ?_ ?_ coords h ?_⟩
  · intro tab htab p hp
    obtain rfl := List.mem_singleton.1 htab
    have : ∀ p ∈ ([0, 1, 2] : List Nat).permutations', KeepsTable edgeIdsT3 p := by decide +kernel
    exact this p (List.mem_permutations'.2 hp)
  · decide
  · intro tab htab p hp
    obtain rfl := List.mem_singleton.1 htab
    have : ∀ p ∈ ([0, 1, 2, 3] : List Nat).permutations', KeepsTable edgeIdsTET4 p := by decide +kernel
    exact this p (List.mem_permutations'.2 hp)
  · decide
  · intro tab htab p hp
    have h1 : ∀ p ∈ hexTurns, KeepsTable edgeIdsH8 p ∧ KeepsTable faceIdsH8 p := by decide +kernel
    have := h1 p ((hexTurn_iff p).1 hp)
    simp only [List.mem_cons, List.not_mem_nil, or_false] at htab
    rcases htab with rfl | rfl
    · exact this.1
    · exact this.2
  · decide
  · exact h.imp fun r r' hr => by
      obtain ⟨h8, p, hp, -, -, rfl⟩ := hr
      exact (hp.perm h8).symm

end

/-! ## triangles -/

section
variable {K : Type} [Field K] [LinearOrder K] [IsStrictOrderedRing K]

/-- **C140.** Triangles in the plane, what holds: areas, shape functions of points and the test of points for triangles listed from another corner in
the same direction. Missing: triangles listed in the other direction, see `C140_reversed_false`. -/
theorem C140_triangle_partial (tol : K) (g a b c : P2 K) (hA : triArea2 ⟨a, b, c⟩ > 0) :
    areaTri (⟨b, c, a⟩ : Tri K) = areaTri ⟨a, b, c⟩ ∧
      globToNatTri g ⟨b, c, a⟩ = ⟨(globToNatTri g ⟨a, b, c⟩).n2, (globToNatTri g ⟨a, b, c⟩).n3, (globToNatTri g ⟨a, b, c⟩).n1⟩ ∧
      pipTri tol (globToNatTri g ⟨b, c, a⟩) = pipTri tol (globToNatTri g ⟨a, b, c⟩) := by
  have hA' : 0 < b.x * (c.y - a.y) + a.x * (b.y - c.y) + c.x * (a.y - b.y) := by
    have : b.x * (c.y - a.y) + a.x * (b.y - c.y) + c.x * (a.y - b.y) = triArea2 ⟨a, b, c⟩ := by simp only [triArea2]; ring
    rw [this]; exact hA
  have h1 : globToNatTri g ⟨b, c, a⟩ = ⟨(globToNatTri g ⟨a, b, c⟩).n2, (globToNatTri g ⟨a, b, c⟩).n3, (globToNatTri g ⟨a, b, c⟩).n1⟩ := by
    have e : c.x * (a.y - b.y) + b.x * (c.y - a.y) + a.x * (b.y - c.y) = b.x * (c.y - a.y) + a.x * (b.y - c.y) + c.x * (a.y - b.y) := by ring
    simp only [globToNatTri, e, abs_of_pos hA', N3.mk.injEq]
    have hne := hA'.ne'
    refine ⟨?_, ?_, ?_⟩ <;> · field_simp; ring
  refine ⟨by simp only [areaTri, triArea2]; ring, h1, ?_⟩
  rw [h1]
  simp only [pipTri]
  rw [Bool.eq_iff_iff]
  simp only [Bool.and_eq_true, decide_eq_true_eq]
  tauto

end

/-- **C140** is false for triangles listed in the other direction: the area is negative, and points inside are not found. -/
theorem C140_reversed_false : ∃ (a b c g : P2 ℚ), areaTri (⟨a, b, c⟩ : Tri ℚ) = 1 / 2 ∧ areaTri (⟨a, c, b⟩ : Tri ℚ) = - (1 / 2) ∧
    pipTri 0 (globToNatTri g ⟨a, b, c⟩) = true ∧ pipTri 0 (globToNatTri g ⟨a, c, b⟩) = false :=
  ⟨⟨0, 0⟩, ⟨1, 0⟩, ⟨0, 1⟩, ⟨1 / 4, 1 / 4⟩, by decide +kernel, by decide +kernel, by decide +kernel, by decide +kernel⟩

theorem spaceArea_swap (a b c : V3 ℝ) : spaceArea (b, a, c) = spaceArea (a, b, c) ∧ spaceArea (a, c, b) = spaceArea (a, b, c) := by
  unfold spaceArea
  constructor <;>
  · congr 2
    simp only [V3.dot, V3.cross, V3.sub_x, V3.sub_y, V3.sub_z]
    ring

/-- **C140.** Areas of triangles in space with the frames of the library: any order of the nodes. -/
theorem C140_areas {coords : List (V3 ℝ)} {t t' : Topo} (hne : t ≠ []) (h : SameNodes t t') (h3 : ∀ r ∈ t, ∃ a b c, r = [a, b, c])
    (hx : ∀ r ∈ t, NodesExist coords r)
    (hd : ∀ r ∈ t, 0 < spaceArea (coords.getD (r.getD 0 0) 0, coords.getD (r.getD 1 0) 0, coords.getD (r.getD 2 0) 0)) :
    ∃ Fs Fs' A, framesOfSurfaces coords t = some Fs ∧ framesOfSurfaces coords t' = some Fs' ∧ areasT3 coords t Fs = some A ∧
      areasT3 coords t' Fs' = some A ∧ A.length = t.length := by
  set T : List Nat → V3 ℝ × V3 ℝ × V3 ℝ := fun r => (coords.getD (r.getD 0 0) 0, coords.getD (r.getD 1 0) 0, coords.getD (r.getD 2 0) 0) with hT
  have hsym : ∀ r r' : List Nat, r.Perm r' → (∃ a b c, r = [a, b, c]) → (∃ a b c, r' = [a, b, c]) ∧ spaceArea (T r') = spaceArea (T r) := by
    rintro r r' hp ⟨a, b, c, rfl⟩
    have hm : r' ∈ ([a, b, c] : List Nat).permutations' := List.mem_permutations'.2 hp.symm
    simp only [List.permutations', List.permutations'Aux, List.flatMap_cons, List.flatMap_nil, List.append_nil, List.map_cons, List.map_nil,
      List.mem_cons, List.cons_append, List.nil_append, List.not_mem_nil, or_false] at hm
    have s1 := fun a b c => (spaceArea_swap a b c).1
    have s2 := fun a b c => (spaceArea_swap a b c).2
    rcases hm with rfl | rfl | rfl | rfl | rfl | rfl <;> refine ⟨⟨_, _, _, rfl⟩, ?_⟩ <;>
      simp only [hT, List.getD_cons_zero, List.getD_cons_succ]
    · exact s1 _ _ _
    · rw [s2, s1]
    · exact s2 _ _ _
    · rw [s1, s2]
    · rw [s1, s2, s1]
  have hcond : ∀ s : Topo, (∀ r ∈ s, ∃ a b c, r = [a, b, c]) → (∀ r ∈ s, NodesExist coords r) → (∀ r ∈ s, 0 < spaceArea (T r)) → s ≠ [] →
      ∃ Fs A, framesOfSurfaces coords s = some Fs ∧ areasT3 coords s Fs = some A ∧ A = s.map fun r => spaceArea (T r) := by
    intro s k1 k2 k3 k4
    obtain ⟨Fs, A, f1, f2, f3, f4⟩ := C71_surfaces (coords := coords) (T := T) k4 k1 (by
      rintro row hr a b c rfl
      have hex := k2 _ hr
      simp only [hT, List.getD_cons_zero, List.getD_cons_succ]
      have g : ∀ n ∈ [a, b, c], coords[n]? = some (coords.getD n 0) := fun n hn => by
        rw [List.getD_eq_getElem?_getD, List.getElem?_eq_getElem (hex n hn)]; rfl
      exact ⟨g a (by simp), g b (by simp), g c (by simp)⟩) (by
      intro row hr h0
      have := k3 row hr
      unfold spaceArea at this
      rw [h0] at this
      simp [V3.dot] at this)
    refine ⟨Fs, A, f1, f2, ?_⟩
    apply List.ext_getElem
    · simp [f3]
    · intro i h1 h2
      have hi : i < s.length := by omega
      have := (f4 i s[i] (List.getElem?_eq_getElem hi)).1
      rw [List.getElem?_eq_getElem h1, Option.some.injEq] at this
      simp [this]
  have hg := List.forall₂_iff_get.1 h
  have hback : ∀ r' ∈ t', ∃ r ∈ t, r.Perm r' := by
    intro r' hr'
    obtain ⟨i, hi, rfl⟩ := List.getElem_of_mem hr'
    exact ⟨_, List.getElem_mem (by omega), hg.2 i (by omega) hi⟩
  obtain ⟨Fs, A, f1, f2, rfl⟩ := hcond t h3 hx hd hne
  obtain ⟨Fs', A', f1', f2', rfl⟩ := hcond t' (fun r' hr' => by
      obtain ⟨r, hr, hp⟩ := hback r' hr'
      exact (hsym r r' hp (h3 r hr)).1) (fun r' hr' n hn => by
      obtain ⟨r, hr, hp⟩ := hback r' hr'
      exact hx r hr n (hp.mem_iff.2 hn)) (fun r' hr' => by
      obtain ⟨r, hr, hp⟩ := hback r' hr'
      rw [(hsym r r' hp (h3 r hr)).2]; exact hd r hr) (by
      intro h0
      subst h0
      exact hne (List.length_eq_zero_iff.1 (by simpa using hg.1)))
  refine ⟨Fs, Fs', _, f1, f1', f2, ?_, by simp⟩
  rw [f2']
  congr 1
  apply List.ext_getElem
  · simp [hg.1]
  · intro i h1 h2
    simp only [List.length_map] at h1 h2
    simp only [List.getElem_map]
    exact (hsym _ _ (hg.2 i h2 h1) (h3 _ (List.getElem_mem h2))).2

/-! ## Cases -/

example : SameNodes [[0, 1, 2, 3], [4, 5, 6, 7]] [[3, 1, 0, 2], [4, 5, 7, 6]] :=
  .cons (by decide) (.cons (by decide) .nil)

example : TurnedHexes [[8, 9, 10, 11, 12, 13, 14, 15]] [[9, 10, 11, 8, 13, 14, 15, 12]] :=
  .cons ⟨listed turnSide (List.range 8), .side .rest, by decide⟩ .nil

example : KeepsHex [0, 4, 5, 1, 3, 7, 6, 2] := by decide +kernel

example : volumes3d (K := ℚ) .TET4 [⟨0, 0, 0⟩, ⟨1, 0, 0⟩, ⟨0, 1, 0⟩, ⟨0, 0, 1⟩] [[0, 1, 2, 3]] = some [1 / 6] ∧
    volumes3d (K := ℚ) .TET4 [⟨0, 0, 0⟩, ⟨1, 0, 0⟩, ⟨0, 1, 0⟩, ⟨0, 0, 1⟩] [[3, 1, 0, 2]] = some [1 / 6] := by decide +kernel

example : Relisted (fun p => p.Perm [0, 1, 2]) 3 [[4, 5, 6]] [[6, 4, 5]] :=
  .cons ⟨rfl, [2, 0, 1], by decide, rfl, by decide, rfl⟩ .nil

end PM
