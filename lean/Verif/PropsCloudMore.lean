import Verif.CloudMore
import Verif.PropsCloud

/-!
# Moving and centring clouds with all kinds of arguments (C61), copies of frames (C113)
-/

namespace PM

section
variable {K : Type} [Field K]

/-! ## C61 moving by rows -/

/-- Clouds with at least two coordinates and vectors with at least two numbers: each of the first three coordinates moves by the number of
the vector with the same index if there is one, the others stay. -/
theorem C61_rows {w : Nat} (hw : 2 ≤ w) {x : List (List K)} (hx : ∀ r ∈ x, r.length = w) {v : List K} (hv : 2 ≤ v.length) :
    ∃ y, rowsMove w x v = some y ∧ y.length = x.length ∧
      ∀ (i : Nat) (r s : List K), x[i]? = some r → y[i]? = some s → s.length = w ∧
        ∀ (k : Nat) (a : K), r[k]? = some a → s[k]? = some (if k < 3 then a + v.getD k 0 else a) := by
  refine ⟨_, by unfold rowsMove dcoordsRow; rw [if_pos ⟨hw, hv⟩]; rfl, by simp, ?_⟩
  intro i r s hr hs
  rw [List.getElem?_map, hr] at hs
  simp only [Option.map_some, Option.some.injEq] at hs
  have hl := hx r (List.mem_of_getElem? hr)
  subst hs
  refine ⟨by simp [hl], fun k a ha => ?_⟩
  have hk : k < w := by
    have := (List.getElem?_eq_some_iff.1 ha).1
    omega
  rw [List.getElem?_zipWith, ha]
  simp only [List.getElem?_map, List.getElem?_range hk, Option.map_some]
  congr 1
  by_cases h3 : k < 3
  · rw [if_pos h3]
    split
    · rfl
    · obtain rfl : k = 2 := by omega
      split
      · rfl
      · rw [List.getD_eq_getElem?_getD, List.getElem?_eq_none (by omega)]
        rfl
  · rw [if_neg h3, if_neg (by omega), if_neg (by omega), add_zero]

/-- A case: a vector with two numbers leaves the third coordinate, a vector with four numbers the fourth. -/
example : rowsMove 3 [[(1 : ℚ), 2, 3]] [5, 6] = some [[6, 8, 3]] ∧ rowsMove 4 [[(1 : ℚ), 2, 3, 4]] [5, 6, 7, 8] = some [[6, 8, 10, 4]] := by
  decide +kernel

/-- Clouds with one coordinate per point and vectors with one number are refused. -/
theorem C61_rows_refused (w : Nat) (x : List (List K)) (v : List K) : rowsMove w x v = none ↔ w < 2 ∨ v.length < 2 := by
  unfold rowsMove dcoordsRow
  split
  · simp; omega
  · simp; omega

/-! ## C61 moving by a vector with its own frame -/

/-- With arrays this is the motion of the theorems above. -/
theorem C61_array (F : CFrame K) (x : List (V3 K)) (v : V3 K) (frame : Option (CFrame K)) :
    pcMoveArg F x (.array v) frame = pcMove F x v frame := by
  cases frame <;> rfl

theorem place_add_vec (F : CFrame K) (y v : V3 K) : F.place (y + v) = F.place y + F.vecAmb v := by
  ext <;> simp [CFrame.place, CFrame.vecAmb] <;> ring

/-- The spec: every point of the cloud moves in space by the ambient vector `u`. -/
def MovedBy (F : CFrame K) (u : V3 K) (x y : List (V3 K)) : Prop := y.map (pcShow F none) = x.map fun p => pcShow F none p + u

/-- A `Vector` moves the cloud by the vector with the same components in the frame of the cloud, whatever `frame` is. It is the
given vector exactly if these are the same vectors in space. -/
theorem C61_vector_partial (F G : CFrame K) (x : List (V3 K)) (v : V3 K) (frame : Option (CFrame K)) :
    MovedBy F (F.vecAmb v) x (pcMoveArg F x (.vector G v) frame) ∧
      (x ≠ [] → (MovedBy F (G.vecAmb v) x (pcMoveArg F x (.vector G v) frame) ↔ F.vecAmb v = G.vecAmb v)) := by
  have h1 : MovedBy F (F.vecAmb v) x (pcMoveArg F x (.vector G v) frame) := by
    unfold MovedBy
    simp only [pcMoveArg, List.map_map]
    apply List.map_congr_left
    intro y _
    simp only [Function.comp, pcShow_none]
    exact place_add_vec F y v
  refine ⟨h1, fun hx => ⟨fun h2 => ?_, fun h => h ▸ h1⟩⟩
  unfold MovedBy at h1 h2
  rw [h1] at h2
  match x, hx with
  | p :: x, _ =>
    simp only [List.map_cons, List.cons.injEq] at h2
    have := h2.1
    ext
    · have := congrArg V3.x this
      simpa using this
    · have := congrArg V3.y this
      simpa using this
    · have := congrArg V3.z this
      simpa using this

/-- A vector given in a frame with the axes of the frame of the cloud moves the cloud by this vector. -/
theorem C61_vector_own (F G : CFrame K) (hi : F.i = G.i) (hj : F.j = G.j) (hk : F.k = G.k) (x : List (V3 K)) (v : V3 K)
    (frame : Option (CFrame K)) : MovedBy F (G.vecAmb v) x (pcMoveArg F x (.vector G v) frame) := by
  have : F.vecAmb v = G.vecAmb v := by unfold CFrame.vecAmb; rw [hi, hj, hk]
  exact this ▸ (C61_vector_partial F G x v frame).1

/-- The frame of the vector is not regarded. -/
theorem C61_vector_false : ¬ ∀ (F G : CFrame ℚ) (x : List (V3 ℚ)) (v : V3 ℚ), F.Ortho → G.Ortho →
    MovedBy F (G.vecAmb v) x (pcMoveArg F x (.vector G v) none) := by
  intro h
  have := h turnedFrame obliqueFrame [⟨0, 0, 0⟩] ⟨1, 0, 0⟩ turnedFrame_ortho obliqueFrame_ortho
  exact absurd this (by unfold MovedBy; decide +kernel)

/-- Motions keep the form of the cloud: differences of points do not change, in any frame. -/
theorem C61_rigid (F : CFrame K) (T : Option (CFrame K)) (x : List (V3 K)) (v : MoveArg K) (frame : Option (CFrame K)) :
    (pcMoveArg F x v frame).length = x.length ∧
      ∀ (i j : Nat) (p q p' q' : V3 K), x[i]? = some p → x[j]? = some q → (pcMoveArg F x v frame)[i]? = some p' →
        (pcMoveArg F x v frame)[j]? = some q' → pcShow F T p' - pcShow F T q' = pcShow F T p - pcShow F T q := by
  obtain ⟨u, hu⟩ : ∃ u, pcMoveArg F x v frame = x.map fun y => y + u := by
    cases v <;> cases frame <;> exact ⟨_, rfl⟩
  rw [hu]
  refine ⟨by simp, fun i j p q p' q' hi hj hi' hj' => ?_⟩
  rw [List.getElem?_map, hi] at hi'
  rw [List.getElem?_map, hj] at hj'
  simp only [Option.map_some, Option.some.injEq] at hi' hj'
  subst hi' hj'
  cases T with
  | none => simp only [pcShow_none, place_add_vec]; ext <;> simp
  | some T => simp only [pcShow_some, place_add_vec]; ext <;> simp [CFrame.vecLoc, V3.dot] <;> ring

/-! ## C61 centring along some axes -/

/-- Component with index 0, 1 or 2. -/
def V3.comp (v : V3 K) : Nat → K
  | 0 => v.x
  | 1 => v.y
  | _ => v.z

/-- The axis `i` is selected. -/
def Selected : AxesArg → Nat → Prop
  | .all, _ => True
  | .list l, i => (i : Int) ∈ l ∨ (i : Int) - 3 ∈ l
  | .tuple [], _ => True
  | .tuple l, i => (i : Int) ∈ l ∨ (i : Int) - 3 ∈ l

/-- Arguments the function can deal with: no index out of range, no tuple with several numbers. -/
def AxesArg.OK : AxesArg → Prop
  | .all => True
  | .list l => ∀ k ∈ l, -3 ≤ k ∧ k < 3
  | .tuple l => l.length ≤ 1 ∧ ∀ k ∈ l, -3 ≤ k ∧ k < 3

omit [Field K] in
theorem setComp_comp (d c : V3 K) {i j : Nat} (hi : i < 3) (hj : j < 3) : (setComp d c i).comp j = if i = j then c.comp j else d.comp j := by
  match i, hi, j, hj with
  | 0, _, 0, _ => rfl
  | 0, _, 1, _ => rfl
  | 0, _, 2, _ => rfl
  | 1, _, 0, _ => rfl
  | 1, _, 1, _ => rfl
  | 1, _, 2, _ => rfl
  | 2, _, 0, _ => rfl
  | 2, _, 1, _ => rfl
  | 2, _, 2, _ => rfl

omit [Field K] in
theorem foldl_setComp (c : V3 K) (is : List Nat) (his : ∀ i ∈ is, i < 3) (d : V3 K) {j : Nat} (hj : j < 3) :
    (is.foldl (fun d i => setComp d c i) d).comp j = if j ∈ is then c.comp j else d.comp j := by
  induction is generalizing d with
  | nil => simp
  | cons i is ih =>
    rw [List.foldl_cons, ih (fun k hk => his k (List.mem_cons_of_mem _ hk)), setComp_comp d c (his i (by simp)) hj]
    by_cases h1 : j ∈ is
    · simp [h1]
    · by_cases h2 : i = j
      · simp [h2]
      · have : ¬ j = i := fun e => h2 e.symm
        simp [h1, h2, this]

theorem npIndex3 {k : Int} {i : Nat} : npIndex 3 k = some i ↔ i < 3 ∧ (k = i ∨ k = (i : Int) - 3) := by
  unfold npIndex
  constructor
  · intro h
    split at h
    · cases h; omega
    · split at h
      · cases h; omega
      · cases h
  · rintro ⟨h1, h2⟩
    rcases h2 with h2 | h2
    · rw [if_pos (by omega)]; congr 1; omega
    · rw [if_neg (by omega), if_pos (by omega)]; congr 1; omega

theorem write_axes (c : V3 K) {l : List Int} (hl : ∀ k ∈ l, -3 ≤ k ∧ k < 3) :
    ∃ d, ((l.mapM (npIndex 3)).map fun is => is.foldl (fun d i => setComp d c i) (0 : V3 K)) = some d ∧
      ∀ j : Nat, j < 3 → (((j : Int) ∈ l ∨ (j : Int) - 3 ∈ l) → d.comp j = c.comp j) ∧
        (¬ ((j : Int) ∈ l ∨ (j : Int) - 3 ∈ l) → d.comp j = 0) := by
  obtain ⟨is, his⟩ : ∃ is, l.mapM (npIndex 3) = some is := by
    have one : ∀ k : Int, -3 ≤ k ∧ k < 3 → ∃ i, npIndex 3 k = some i := by
      intro k ⟨h1, h2⟩
      by_cases h0 : 0 ≤ k
      · exact ⟨k.toNat, npIndex3.2 ⟨by omega, Or.inl (by omega)⟩⟩
      · exact ⟨(k + 3).toNat, npIndex3.2 ⟨by omega, Or.inr (by omega)⟩⟩
    obtain ⟨is, h, -⟩ := mapM_exists (f := npIndex 3) (l := l) (P := fun _ _ _ => True) (by
      intro i k hk
      obtain ⟨y, hy⟩ := one k (hl k (List.mem_of_getElem? hk))
      exact ⟨y, hy, trivial⟩)
    exact ⟨is, h⟩
  have hF := mapM_eq_some_iff.1 his
  have hmem : ∀ j, j ∈ is ↔ j < 3 ∧ ((j : Int) ∈ l ∨ (j : Int) - 3 ∈ l) := by
    clear his hl
    induction hF with
    | nil => simp
    | cons h _ ih =>
      intro j
      have h' := npIndex3.1 h
      simp only [List.mem_cons, ih]
      constructor
      · rintro (rfl | ⟨h3, h4⟩)
        · exact ⟨h'.1, by rcases h'.2 with e | e <;> simp [e]⟩
        · exact ⟨h3, by rcases h4 with e | e <;> simp [e]⟩
      · rintro ⟨h3, h4⟩
        by_cases e : (j : Int) ∈ ‹List Int› ∨ (j : Int) - 3 ∈ ‹List Int›
        · exact Or.inr ⟨h3, e⟩
        · left
          have := h'.1
          rcases h4 with (h4 | h4) | (h4 | h4)
          · omega
          · exact absurd (Or.inl h4) e
          · omega
          · exact absurd (Or.inr h4) e
  refine ⟨_, by rw [his]; rfl, fun j hj => ?_⟩
  rw [foldl_setComp c is (fun i hi => ((hmem i).1 hi).1) 0 hj]
  constructor
  · intro h; rw [if_pos ((hmem j).2 ⟨hj, h⟩)]
  · intro h
    rw [if_neg (fun e => h ((hmem j).1 e).2)]
    match j, hj with
    | 0, _ => rfl
    | 1, _ => rfl
    | 2, _ => rfl

theorem centreAlong_some (c : V3 K) {axes : AxesArg} (h : axes.OK) :
    ∃ d, centreAlong c axes = some d ∧ ∀ j : Nat, j < 3 → (Selected axes j → d.comp j = c.comp j) ∧ (¬ Selected axes j → d.comp j = 0) := by
  match axes, h with
  | .all, _ =>
    obtain ⟨d, h1, h2⟩ := write_axes c (l := [0, 1, 2]) (by decide)
    refine ⟨d, h1, fun j hj => ⟨fun _ => (h2 j hj).1 ?_, fun h => absurd trivial h⟩⟩
    left
    match j, hj with
    | 0, _ => decide
    | 1, _ => decide
    | 2, _ => decide
  | .list l, h => exact write_axes c h
  | .tuple [], _ => exact ⟨c, rfl, fun j _ => ⟨fun _ => rfl, fun h => absurd trivial h⟩⟩
  | .tuple [k], h => exact write_axes c h.2
  | .tuple (a :: b :: l), h => exact absurd h.1 (by simp)

theorem pcCenter_moved [CharZero K] {F : CFrame K} {T : Option (CFrame K)} {x y : List (V3 K)} {u : V3 K} (hx : x ≠ [])
    (h : y.map (pcShow F T) = x.map fun p => pcShow F T p + u) : pcCenter F T y = pcCenter F T x + u := by
  have hl : (x.length : K) ≠ 0 := by simpa using hx
  have hlen : y.length = x.length := by simpa using congrArg List.length h
  have hsum : ∀ f : V3 K → K, (∀ a b, f (a + b) = f a + f b) → ((x.map fun p => pcShow F T p + u).map f).sum =
      ((x.map (pcShow F T)).map f).sum + x.length * f u := by
    intro f hf
    clear h hlen hl hx
    induction x with
    | nil => simp
    | cons a x ih =>
      simp only [List.map_cons, List.sum_cons, ih, List.length_cons, hf]
      push_cast
      ring
  unfold pcCenter
  rw [h]
  ext
  · simp only [List.length_map, V3.add_x]
    rw [hsum V3.x (by simp)]
    field_simp
  · simp only [List.length_map, V3.add_y]
    rw [hsum V3.y (by simp)]
    field_simp
  · simp only [List.length_map, V3.add_z]
    rw [hsum V3.z (by simp)]
    field_simp

/-- Centring along selected axes of a frame: seen from this frame, the centre has zeros at the selected axes and its former
components at the others, and all points move by the same vector. -/
theorem C61_centralize_axes [CharZero K] {F T : CFrame K} (hF : F.Ortho) (hT : T.Ortho) {x : List (V3 K)} (hx : x ≠ [])
    {axes : AxesArg} (ha : axes.OK) :
    ∃ y u, pcCentralizeAxes F (some T) axes x = some y ∧
      y.map (pcShow F (some T)) = (x.map fun p => pcShow F (some T) p + u) ∧
      ∀ j : Nat, j < 3 → (Selected axes j → (pcCenter F (some T) y).comp j = 0) ∧
        (¬ Selected axes j → (pcCenter F (some T) y).comp j = (pcCenter F (some T) x).comp j ∧ u.comp j = 0) := by
  obtain ⟨d, h1, h2⟩ := centreAlong_some (pcCenter F (some T) x) ha
  have hm := C61_move_in_frame hF hT x (-d)
  refine ⟨_, -d, by unfold pcCentralizeAxes; rw [h1]; rfl, hm, fun j hj => ?_⟩
  rw [pcCenter_moved hx hm]
  have e : ∀ a b : V3 K, (a + -b).comp j = a.comp j - b.comp j := by
    intro a b
    match j, hj with
    | 0, _ => simp [V3.comp, sub_eq_add_neg]
    | 1, _ => simp [V3.comp, sub_eq_add_neg]
    | 2, _ => simp [V3.comp, sub_eq_add_neg]
  have e' : (-d).comp j = -(d.comp j) := by
    match j, hj with
    | 0, _ => rfl
    | 1, _ => rfl
    | 2, _ => rfl
  rw [e, e']
  refine ⟨fun h => ?_, fun h => ?_⟩
  · rw [(h2 j hj).1 h, sub_self]
  · rw [(h2 j hj).2 h]; simp

/-- Centring along all axes is the centring of the theorems above. -/
theorem C61_centralize_all (F : CFrame K) (T : Option (CFrame K)) (x : List (V3 K)) :
    pcCentralizeAxes F T .all x = some (pcCentralize F T x) := by
  obtain ⟨d, h1, h2⟩ := centreAlong_some (pcCenter F T x) (axes := .all) trivial
  unfold pcCentralizeAxes pcCentralize
  rw [h1]
  have : d = pcCenter F T x := by
    ext
    · exact (h2 0 (by decide)).1 trivial
    · exact (h2 1 (by decide)).1 trivial
    · exact (h2 2 (by decide)).1 trivial
  rw [this]; rfl

/-- Arguments outside the permitted ones are refused. -/
theorem C61_axes_refused (F : CFrame K) (T : Option (CFrame K)) (x : List (V3 K)) {axes : AxesArg} (h : ¬ axes.OK) :
    pcCentralizeAxes F T axes x = none := by
  have key : ∀ (c : V3 K) (l : List Int), ¬ (∀ k ∈ l, -3 ≤ k ∧ k < 3) →
      ((l.mapM (npIndex 3)).map fun is => is.foldl (fun d i => setComp d c i) (0 : V3 K)) = none := by
    intro c l hl
    push Not at hl
    obtain ⟨k, hk, h'⟩ := hl
    rw [Option.map_eq_none_iff]
    cases hm : l.mapM (npIndex 3) with
    | none => rfl
    | some is =>
      exfalso
      have hF := mapM_eq_some_iff.1 hm
      clear hm
      induction hF with
      | nil => simp at hk
      | cons e _ ih =>
        rcases List.mem_cons.1 hk with rfl | hk
        · have := npIndex3.1 e
          omega
        · exact ih hk
  unfold pcCentralizeAxes
  rw [Option.map_eq_none_iff]
  match axes, h with
  | .all, h => exact absurd trivial h
  | .list l, h => exact key _ l h
  | .tuple [], h => exact absurd ⟨by simp, by simp⟩ h
  | .tuple [k], h => exact key _ [k] (fun e => h ⟨by simp, e⟩)
  | .tuple (a :: b :: l), _ => rfl

/-- "Iterable" of axes: a tuple with two numbers is refused. -/
theorem C61_axes_false : ¬ ∀ (F : CFrame ℚ) (x : List (V3 ℚ)) (l : List Int), F.Ortho → x ≠ [] → (∀ k ∈ l, 0 ≤ k ∧ k < 3) →
    (pcCentralizeAxes F (some F) (.tuple l) x).isSome := by
  intro h
  have := h turnedFrame [⟨0, 0, 0⟩] [0, 1] turnedFrame_ortho (by simp) (by decide)
  exact absurd this (by decide +kernel)

end

example : pcCentralizeAxes turnedFrame (some obliqueFrame) (.list [0, -1]) [⟨0, 0, 0⟩, ⟨2, 4, 6⟩] =
    some [⟨-48/25, 36/25, 1⟩, ⟨2/25, 136/25, 7⟩] := by decide +kernel

example : rowsMove 2 [[(1 : ℚ), 2], [3, 4]] [10, 20, 30] = some [[11, 22], [13, 24]] := by decide +kernel

/-! ## C113 copies of frames -/

section
variable {A K : Type} [Field K]

/-- Does the step make a frame? -/
def FOp.makes : FOp A K → Bool
  | .new _ | .newList _ _ | .newArray _ _ | .copy _ | .deepcopy _ => true
  | .origo _ | .move _ _ => false

/-- Number of frames made in a history (last step first); frames are numbered in the order of their making. -/
def madeIn (hist : List (FOp A K)) : Nat := (hist.filter FOp.makes).length

/-- The frame behind a frame made by (repeated) shallow copying. -/
def sourceFrame : List (FOp A K) → Nat → Nat
  | [], g => g
  | op :: hist, g =>
    if g = madeIn hist then match op with
      | .copy f => sourceFrame hist f
      | _ => g
    else sourceFrame hist g

/-- Where the origin of a frame should be: shallow copies move together with their sources, all other frames on their own. -/
def originSpec : List (FOp A K) → Nat → V3 K
  | [], _ => 0
  | .move f d :: hist, g => if sourceFrame hist f = sourceFrame hist g then originSpec hist g + d else originSpec hist g
  | op :: hist, g =>
    if g = madeIn hist then match op with
      | .newList _ v => v
      | .copy f | .deepcopy f => originSpec hist f
      | _ => 0
    else originSpec hist g

/-- The axes of a frame. -/
def axesSpec : List (FOp A K) → Nat → Option A
  | [], _ => none
  | op :: hist, g =>
    if g = madeIn hist then match op with
      | .new a | .newList a _ | .newArray a _ => some a
      | .copy f | .deepcopy f => axesSpec hist f
      | _ => none
    else axesSpec hist g

/-- The step only speaks about frames made before, and not about arrays of the caller. -/
def FOp.Fine (n : Nat) : FOp A K → Prop
  | .new _ | .newList _ _ => True
  | .newArray _ _ => False
  | .origo f | .copy f | .deepcopy f | .move f _ => f < n

/-- Histories (last step first) without arrays of the caller, in which only existing frames are used. -/
def FineHist : List (FOp A K) → Prop
  | [] => True
  | op :: hist => op.Fine (madeIn hist) ∧ FineHist hist

/-- What the arrays say about a history. -/
structure FInv (hist : List (FOp A K)) (w : FWorld A K) : Prop where
  len : w.frames.length = madeIn hist
  axes : ∀ (g : Nat) (o : FObj A), w.frames[g]? = some o → axesSpec hist g = some o.axes
  orig : ∀ (g : Nat) (o : FObj A), w.frames[g]? = some o → w.originOf g = some (originSpec hist g)
  src : ∀ g < madeIn hist, sourceFrame hist g < madeIn hist
  share : ∀ (g g' : Nat) (o o' : FObj A), w.frames[g]? = some o → w.frames[g']? = some o' →
    (sourceFrame hist g = sourceFrame hist g' ↔ g = g' ∨ (o.origo = o'.origo ∧ o.origo ≠ none))

theorem FInv.valid {hist : List (FOp A K)} {w : FWorld A K} (h : FInv hist w) {g : Nat} {o : FObj A} (hg : w.frames[g]? = some o)
    {k : Nat} (hk : o.origo = some k) : w.arrays[k]? = some (originSpec hist g) := by
  have := h.orig g o hg
  unfold FWorld.originOf at this
  rw [hg] at this
  simp only [hk] at this
  exact this

theorem FInv.zero {hist : List (FOp A K)} {w : FWorld A K} (h : FInv hist w) {g : Nat} {o : FObj A} (hg : w.frames[g]? = some o)
    (hk : o.origo = none) : originSpec hist g = 0 := by
  have := h.orig g o hg
  unfold FWorld.originOf at this
  rw [hg] at this
  simp only [hk, Option.some.injEq] at this
  exact this.symm

theorem originOf_of {w : FWorld A K} {g : Nat} {o : FObj A} (hg : w.frames[g]? = some o) {v : V3 K}
    (h1 : ∀ k, o.origo = some k → w.arrays[k]? = some v) (h2 : o.origo = none → v = 0) : w.originOf g = some v := by
  unfold FWorld.originOf
  rw [hg]
  cases ho : o.origo with
  | none => simp [ho, h2 ho]
  | some k => simp only [ho]; exact h1 k ho

/-- Reading the origin keeps the invariant. -/
theorem origoArr_inv {hist : List (FOp A K)} {w : FWorld A K} (h : FInv hist w) {f : Nat} (hf : f < madeIn hist) :
    ∃ w' k o, w.origoArr f = some (w', k) ∧ FInv hist w' ∧ w.frames[f]? = some o ∧ w'.frames[f]? = some ⟨o.axes, some k⟩ := by
  obtain ⟨o, ho⟩ : ∃ o, w.frames[f]? = some o := ⟨_, List.getElem?_eq_getElem (by rw [h.len]; exact hf)⟩
  cases hk : o.origo with
  | some k =>
    refine ⟨w, k, o, ?_, h, ho, ?_⟩
    · unfold FWorld.origoArr; rw [ho]; simp only [hk]
    · rw [ho, ← hk]
  | none =>
    refine ⟨⟨w.arrays ++ [0], w.frames.set f ⟨o.axes, some w.arrays.length⟩⟩, w.arrays.length, o, ?_, ?_, ho, ?_⟩
    · unfold FWorld.origoArr; rw [ho]; simp only [hk]
    · have get : ∀ (g : Nat) (o1 : FObj A), (w.frames.set f ⟨o.axes, some w.arrays.length⟩)[g]? = some o1 →
          (g = f ∧ o1 = ⟨o.axes, some w.arrays.length⟩) ∨ (g ≠ f ∧ w.frames[g]? = some o1) := by
        intro g o1 h1
        rw [List.getElem?_set] at h1
        split at h1
        · rename_i e
          split at h1
          · exact Or.inl ⟨e.symm, by simpa using h1.symm⟩
          · cases h1
        · rename_i e
          exact Or.inr ⟨fun e' => e e'.symm, h1⟩
      have old : ∀ {g : Nat} {o1 : FObj A} {k : Nat}, w.frames[g]? = some o1 → o1.origo = some k → k < w.arrays.length := by
        intro g o1 k h1 h2
        exact (List.getElem?_eq_some_iff.1 (h.valid h1 h2)).1
      refine ⟨by simp [h.len], ?_, ?_, h.src, ?_⟩
      · intro g o1 h1
        rcases get g o1 h1 with ⟨rfl, rfl⟩ | ⟨-, h1⟩
        · exact h.axes _ o ho
        · exact h.axes g o1 h1
      · intro g o1 h1
        refine originOf_of h1 ?_ ?_
        · intro k hk'
          rcases get g o1 h1 with ⟨rfl, rfl⟩ | ⟨-, h1⟩
          · simp only [Option.some.injEq] at hk'
            subst hk'
            rw [h.zero ho hk]
            simp
          · rw [List.getElem?_append_left (old h1 hk')]
            exact h.valid h1 hk'
        · intro hk'
          rcases get g o1 h1 with ⟨rfl, rfl⟩ | ⟨-, h1⟩
          · cases hk'
          · exact h.zero h1 hk'
      · intro g g' o1 o2 h1 h2
        rcases get g o1 h1 with ⟨rfl, rfl⟩ | ⟨n1, m1⟩ <;> rcases get g' o2 h2 with ⟨rfl, rfl⟩ | ⟨n2, m2⟩
        · simp
        · rw [h.share _ _ _ _ ho m2]
          constructor
          · rintro (e | ⟨e1, e2⟩)
            · exact Or.inl e
            · exact absurd hk e2
          · rintro (e | ⟨e1, -⟩)
            · exact Or.inl e
            · have := old m2 e1.symm
              omega
        · rw [h.share _ _ _ _ m1 ho]
          constructor
          · rintro (e | ⟨e1, e2⟩)
            · exact Or.inl e
            · exact absurd (e1.trans hk) e2
          · rintro (e | ⟨e1, -⟩)
            · exact Or.inl e
            · have := old m1 e1
              omega
        · exact h.share _ _ _ _ m1 m2
    · rw [List.getElem?_set]
      have : f < w.frames.length := by rw [h.len]; exact hf
      simp [this]

/-- A new frame with its own array, or none yet. -/
theorem fresh_inv {hist : List (FOp A K)} {w : FWorld A K} (h : FInv hist w) {op : FOp A K} {a : A} {v : V3 K} {new : Option Nat}
    {arrays : List (V3 K)} (hm : op.makes = true) (hs : sourceFrame (op :: hist) (madeIn hist) = madeIn hist)
    (hs' : ∀ g, g ≠ madeIn hist → originSpec (op :: hist) g = originSpec hist g)
    (hax : axesSpec (op :: hist) (madeIn hist) = some a) (hv : originSpec (op :: hist) (madeIn hist) = v)
    (hnew : new = none ∧ v = 0 ∧ arrays = w.arrays ∨ new = some w.arrays.length ∧ arrays = w.arrays ++ [v]) :
    FInv (op :: hist) ⟨arrays, w.frames ++ [⟨a, new⟩]⟩ := by
  have hl : madeIn (op :: hist) = madeIn hist + 1 := by simp [madeIn, hm]
  have get : ∀ (g : Nat) (o1 : FObj A), (w.frames ++ [⟨a, new⟩])[g]? = some o1 →
      (g = madeIn hist ∧ o1 = ⟨a, new⟩) ∨ (g < madeIn hist ∧ w.frames[g]? = some o1) := by
    intro g o1 h1
    by_cases e : g < w.frames.length
    · rw [List.getElem?_append_left e] at h1
      exact Or.inr ⟨h.len ▸ e, h1⟩
    · rw [List.getElem?_append_right (by omega)] at h1
      have e0 : g - w.frames.length = 0 := by
        have := (List.getElem?_eq_some_iff.1 h1).1
        simpa using this
      rw [e0] at h1
      exact Or.inl ⟨by have := h.len; omega, by simpa using h1.symm⟩
  have old : ∀ {g : Nat} {o1 : FObj A} {k : Nat}, w.frames[g]? = some o1 → o1.origo = some k → k < w.arrays.length := by
    intro g o1 k h1 h2
    exact (List.getElem?_eq_some_iff.1 (h.valid h1 h2)).1
  have src : ∀ g, g < madeIn hist → sourceFrame (op :: hist) g = sourceFrame hist g := by
    intro g hg
    simp only [sourceFrame]
    rw [if_neg (by omega)]
  refine ⟨by simp [hl, h.len], ?_, ?_, ?_, ?_⟩
  · intro g o1 h1
    rcases get g o1 h1 with ⟨rfl, rfl⟩ | ⟨hg, h1⟩
    · exact hax
    · simp only [axesSpec]
      rw [if_neg (by omega)]
      exact h.axes g o1 h1
  · intro g o1 h1
    refine originOf_of h1 ?_ ?_
    · intro k hk'
      rcases get g o1 h1 with ⟨rfl, rfl⟩ | ⟨hg, h1⟩
      · simp only at hk'
        rcases hnew with ⟨e, -, -⟩ | ⟨e, e'⟩
        · rw [e] at hk'; cases hk'
        · rw [e] at hk'
          simp only [Option.some.injEq] at hk'
          subst hk'
          rw [hv, e']
          simp
      · rw [hs' g (by omega)]
        rcases hnew with ⟨-, -, e⟩ | ⟨-, e'⟩
        · rw [e]; exact h.valid h1 hk'
        · rw [e', List.getElem?_append_left (old h1 hk')]
          exact h.valid h1 hk'
    · intro hk'
      rcases get g o1 h1 with ⟨rfl, rfl⟩ | ⟨hg, h1⟩
      · rw [hv]
        simp only at hk'
        rcases hnew with ⟨-, e, -⟩ | ⟨e, -⟩
        · exact e
        · rw [e] at hk'; cases hk'
      · rw [hs' g (by omega)]
        exact h.zero h1 hk'
  · intro g hg
    rw [hl] at hg ⊢
    by_cases e : g = madeIn hist
    · subst e; rw [hs]; omega
    · rw [src g (by omega)]
      have := h.src g (by omega)
      omega
  · have ne : ∀ {g : Nat} {o1 : FObj A}, w.frames[g]? = some o1 → ¬ (o1.origo = new ∧ o1.origo ≠ none) := by
      rintro g o1 h1 ⟨e1, e2⟩
      rcases hnew with ⟨e, -, -⟩ | ⟨e, -⟩
      · exact e2 (e1.trans e)
      · have := old h1 (e1.trans e)
        omega
    intro g g' o1 o2 h1 h2
    rcases get g o1 h1 with ⟨rfl, rfl⟩ | ⟨n1, h1⟩ <;> rcases get g' o2 h2 with ⟨rfl, rfl⟩ | ⟨n2, h2⟩
    · simp
    · rw [hs, src _ n2]
      have := h.src _ n2
      constructor
      · intro e; omega
      · rintro (e | ⟨e1, e2⟩)
        · omega
        · exact absurd ⟨e1.symm, fun e => e2 (e1.trans e)⟩ (ne h2)
    · rw [hs, src _ n1]
      have := h.src _ n1
      constructor
      · intro e; omega
      · rintro (e | e)
        · omega
        · exact absurd e (ne h1)
    · rw [src _ n1, src _ n2]
      exact h.share _ _ _ _ h1 h2

/-- A shallow copy. -/
theorem copy_inv {hist : List (FOp A K)} {w : FWorld A K} (h : FInv hist w) {f k : Nat} {a : A} (hf : f < madeIn hist)
    (hw : w.frames[f]? = some ⟨a, some k⟩) : FInv (.copy f :: hist) ⟨w.arrays, w.frames ++ [⟨a, some k⟩]⟩ := by
  have hl : madeIn (.copy f :: hist) = madeIn hist + 1 := rfl
  have get : ∀ (g : Nat) (o1 : FObj A), (w.frames ++ [⟨a, some k⟩])[g]? = some o1 →
      (g = madeIn hist ∧ o1 = ⟨a, some k⟩) ∨ (g < madeIn hist ∧ w.frames[g]? = some o1) := by
    intro g o1 h1
    by_cases e : g < w.frames.length
    · rw [List.getElem?_append_left e] at h1
      exact Or.inr ⟨h.len ▸ e, h1⟩
    · rw [List.getElem?_append_right (by omega)] at h1
      have e0 : g - w.frames.length = 0 := by
        have := (List.getElem?_eq_some_iff.1 h1).1
        simpa using this
      rw [e0] at h1
      exact Or.inl ⟨by have := h.len; omega, by simpa using h1.symm⟩
  have src : ∀ g, g < madeIn hist → sourceFrame (.copy f :: hist) g = sourceFrame hist g := by
    intro g hg
    simp only [sourceFrame]
    rw [if_neg (by omega)]
  have src' : sourceFrame (.copy f :: hist) (madeIn hist) = sourceFrame hist f := by simp [sourceFrame]
  have org : ∀ g, g < madeIn hist → originSpec (.copy f :: hist) g = originSpec hist g := by
    intro g hg
    simp only [originSpec]
    rw [if_neg (by omega)]
  have org' : originSpec (.copy f :: hist) (madeIn hist) = originSpec hist f := by simp [originSpec]
  refine ⟨by simp [hl, h.len], ?_, ?_, ?_, ?_⟩
  · intro g o1 h1
    rcases get g o1 h1 with ⟨rfl, rfl⟩ | ⟨hg, h1⟩
    · simp only [axesSpec, if_true]
      exact h.axes f _ hw
    · simp only [axesSpec]
      rw [if_neg (by omega)]
      exact h.axes g o1 h1
  · intro g o1 h1
    refine originOf_of h1 ?_ ?_
    · intro k' hk'
      rcases get g o1 h1 with ⟨rfl, rfl⟩ | ⟨hg, h1⟩
      · simp only [Option.some.injEq] at hk'
        subst hk'
        rw [org']
        exact h.valid hw rfl
      · rw [org g hg]
        exact h.valid h1 hk'
    · intro hk'
      rcases get g o1 h1 with ⟨rfl, rfl⟩ | ⟨hg, h1⟩
      · cases hk'
      · rw [org g hg]
        exact h.zero h1 hk'
  · intro g hg
    rw [hl] at hg ⊢
    by_cases e : g = madeIn hist
    · subst e; rw [src']; have := h.src f hf; omega
    · rw [src g (by omega)]
      have := h.src g (by omega)
      omega
  · intro g g' o1 o2 h1 h2
    rcases get g o1 h1 with ⟨rfl, rfl⟩ | ⟨n1, h1⟩ <;> rcases get g' o2 h2 with ⟨rfl, rfl⟩ | ⟨n2, h2⟩
    · simp
    · rw [src', src _ n2, h.share _ _ _ _ hw h2]
      constructor
      · rintro (e | e)
        · subst e
          rw [hw] at h2
          cases h2
          exact Or.inr ⟨rfl, by simp⟩
        · exact Or.inr e
      · rintro (e | e)
        · omega
        · exact Or.inr e
    · rw [src', src _ n1, h.share _ _ _ _ h1 hw]
      constructor
      · rintro (e | e)
        · subst e
          rw [hw] at h1
          cases h1
          exact Or.inr ⟨rfl, by simp⟩
        · exact Or.inr e
      · rintro (e | e)
        · omega
        · exact Or.inr e
    · rw [src _ n1, src _ n2]
      exact h.share _ _ _ _ h1 h2

/-- A motion. -/
theorem move_inv {hist : List (FOp A K)} {w : FWorld A K} (h : FInv hist w) {f k : Nat} {a : A} {v : V3 K} (d : V3 K)
    (hw : w.frames[f]? = some ⟨a, some k⟩) (hv : w.arrays[k]? = some v) :
    FInv (.move f d :: hist) ⟨w.arrays.set k (v + d), w.frames⟩ := by
  have hl : madeIn (.move f d :: hist) = madeIn hist := by simp [madeIn, FOp.makes]
  have lt : ∀ {g : Nat} {o : FObj A}, w.frames[g]? = some o → g < madeIn hist := by
    intro g o hg
    have := (List.getElem?_eq_some_iff.1 hg).1
    rw [h.len] at this
    exact this
  have src : ∀ g, g < madeIn hist → sourceFrame (.move f d :: hist) g = sourceFrame hist g := by
    intro g hg
    simp only [sourceFrame]
    rw [if_neg (by omega)]
  refine ⟨by rw [hl]; exact h.len, ?_, ?_, ?_, ?_⟩
  · intro g o1 h1
    simp only [axesSpec]
    rw [if_neg (by have := lt h1; omega)]
    exact h.axes g o1 h1
  · intro g o1 h1
    have sh := h.share f g _ _ hw h1
    refine originOf_of h1 ?_ ?_
    · intro k' hk'
      simp only [originSpec]
      rw [List.getElem?_set]
      by_cases e : k = k'
      · subst e
        have hs : sourceFrame hist f = sourceFrame hist g := sh.2 (Or.inr ⟨hk'.symm, by simp⟩)
        have hlt : k < w.arrays.length := (List.getElem?_eq_some_iff.1 hv).1
        rw [if_pos rfl, if_pos hlt, if_pos hs]
        have := h.valid h1 hk'
        rw [hv] at this
        simp only [Option.some.injEq] at this
        rw [this]
      · have hs : ¬ sourceFrame hist f = sourceFrame hist g := by
          rw [sh]
          rintro (e' | ⟨e', -⟩)
          · subst e'
            rw [hw] at h1
            cases h1
            simp only [Option.some.injEq] at hk'
            exact e hk'
          · rw [hk'] at e'
            simp only [Option.some.injEq] at e'
            exact e e'
        rw [if_neg e, if_neg hs]
        exact h.valid h1 hk'
    · intro hk'
      have hs : ¬ sourceFrame hist f = sourceFrame hist g := by
        rw [sh]
        rintro (e' | ⟨e', -⟩)
        · subst e'
          rw [hw] at h1
          cases h1
          cases hk'
        · rw [hk'] at e'
          cases e'
      simp only [originSpec]
      rw [if_neg hs]
      exact h.zero h1 hk'
  · intro g hg
    rw [hl] at hg ⊢
    rw [src g hg]
    exact h.src g hg
  · intro g g' o1 o2 h1 h2
    rw [src _ (lt h1), src _ (lt h2)]
    exact h.share _ _ _ _ h1 h2

/-- Reading the origin does not count. -/
theorem origo_inv {hist : List (FOp A K)} {w : FWorld A K} (h : FInv hist w) (f : Nat) : FInv (.origo f :: hist) w := by
  have hl : madeIn (.origo f :: hist) = madeIn hist := by simp [madeIn, FOp.makes]
  have lt : ∀ {g : Nat} {o : FObj A}, w.frames[g]? = some o → g < madeIn hist := by
    intro g o hg
    have := (List.getElem?_eq_some_iff.1 hg).1
    rw [h.len] at this
    exact this
  have src : ∀ g, g < madeIn hist → sourceFrame (.origo f :: hist) g = sourceFrame hist g := by
    intro g hg
    simp only [sourceFrame]
    rw [if_neg (by omega)]
  refine ⟨by rw [hl]; exact h.len, ?_, ?_, ?_, ?_⟩
  · intro g o1 h1
    simp only [axesSpec]
    rw [if_neg (by have := lt h1; omega)]
    exact h.axes g o1 h1
  · intro g o1 h1
    simp only [originSpec]
    rw [if_neg (by have := lt h1; omega)]
    exact h.orig g o1 h1
  · intro g hg
    rw [hl] at hg ⊢
    rw [src g hg]
    exact h.src g hg
  · intro g g' o1 o2 h1 h2
    rw [src _ (lt h1), src _ (lt h2)]
    exact h.share _ _ _ _ h1 h2

theorem step_inv {hist : List (FOp A K)} {w : FWorld A K} (h : FInv hist w) {op : FOp A K} (hop : op.Fine (madeIn hist)) :
    ∃ w', w.step op = some w' ∧ FInv (op :: hist) w' := by
  cases op with
  | new a =>
    refine ⟨_, rfl, fresh_inv h rfl ?_ ?_ ?_ ?_ (Or.inl ⟨rfl, rfl, rfl⟩)⟩
    · simp [sourceFrame]
    · intro g hg; simp [originSpec, hg]
    · simp [axesSpec]
    · simp [originSpec]
  | newList a v =>
    refine ⟨_, rfl, fresh_inv h rfl ?_ ?_ ?_ ?_ (Or.inr ⟨rfl, rfl⟩)⟩
    · simp [sourceFrame]
    · intro g hg; simp [originSpec, hg]
    · simp [axesSpec]
    · simp [originSpec]
  | newArray a k => exact absurd hop id
  | origo f =>
    obtain ⟨w', k, o, h1, h2, h3, h4⟩ := origoArr_inv h hop
    exact ⟨w', by simp [FWorld.step, h1], origo_inv h2 f⟩
  | copy f =>
    obtain ⟨w', k, o, h1, h2, h3, h4⟩ := origoArr_inv h hop
    exact ⟨_, by simp only [FWorld.step, h1, h3, Option.bind_some, Option.map_some], copy_inv h2 hop h4⟩
  | deepcopy f =>
    obtain ⟨w', k, o, h1, h2, h3, h4⟩ := origoArr_inv h hop
    have hv := h2.valid h4 rfl
    refine ⟨⟨w'.arrays ++ [originSpec hist f], w'.frames ++ [⟨o.axes, some w'.arrays.length⟩]⟩, by
      simp only [FWorld.step, h1, h3, Option.bind_some, hv, Option.map_some], fresh_inv h2 rfl ?_ ?_ ?_ ?_ (Or.inr ⟨rfl, rfl⟩)⟩
    · simp [sourceFrame]
    · intro g hg; simp [originSpec, hg]
    · simp only [axesSpec, if_true]
      have := h2.axes f ⟨o.axes, some k⟩ h4
      exact this
    · simp [originSpec]
  | move f d =>
    obtain ⟨w', k, o, h1, h2, h3, h4⟩ := origoArr_inv h hop
    have hv := h2.valid h4 rfl
    exact ⟨_, by simp only [FWorld.step, h1, Option.bind_some, hv, Option.map_some], move_inv h2 d h4 hv⟩

/-- Programs making, copying and moving frames: every frame keeps its axes and its origin is where it should be. -/
theorem C113_frames_partial {hist : List (FOp A K)} (hh : FineHist hist) (w0 : FWorld A K) (h0 : w0.frames = []) :
    ∃ w, w0.run hist.reverse = some w ∧ w.frames.length = madeIn hist ∧
      ∀ (g : Nat) (o : FObj A), w.frames[g]? = some o →
        w.originOf g = some (originSpec hist g) ∧ axesSpec hist g = some o.axes := by
  have key : ∀ hist : List (FOp A K), FineHist hist → ∃ w, w0.run hist.reverse = some w ∧ FInv hist w := by
    intro hist
    induction hist with
    | nil =>
      intro _
      refine ⟨w0, rfl, by simp [h0, madeIn], ?_, ?_, ?_, ?_⟩
      · intro g o h; simp [h0] at h
      · intro g o h; simp [h0] at h
      · intro g h; simp [madeIn] at h
      · intro g g' o o' h; simp [h0] at h
    | cons op hist ih =>
      intro hh
      obtain ⟨w, h1, h2⟩ := ih hh.2
      obtain ⟨w', h3, h4⟩ := step_inv h2 hh.1
      refine ⟨w', ?_, h4⟩
      unfold FWorld.run at h1 ⊢
      rw [List.reverse_cons, List.foldlM_append, h1]
      simp [h3]
  obtain ⟨w, h1, h2⟩ := key hist hh
  exact ⟨w, h1, h2.len, fun g o hg => ⟨h2.orig g o hg, h2.axes g o hg⟩⟩

/-- Deep copies, and frames made from lists or without an origin, move on their own: nothing done to other frames that are not
shallow copies of it moves a frame. -/
theorem C113_own (hist later : List (FOp A K)) (g : Nat) (hg : g < madeIn hist)
    (hl : ∀ (a l : List (FOp A K)) (f : Nat) (d : V3 K), later = a ++ .move f d :: l → sourceFrame (l ++ hist) f ≠ sourceFrame hist g) :
    originSpec (later ++ hist) g = originSpec hist g ∧ sourceFrame (later ++ hist) g = sourceFrame hist g := by
  induction later with
  | nil => exact ⟨rfl, rfl⟩
  | cons op later ih =>
    obtain ⟨h1, h2⟩ := ih fun a l f d e => hl (op :: a) l f d (by rw [e]; rfl)
    have hlt : g < madeIn (later ++ hist) := by
      unfold madeIn at hg ⊢
      rw [List.filter_append, List.length_append]
      omega
    have h2' : sourceFrame (op :: later ++ hist) g = sourceFrame hist g := by
      rw [← h2]
      simp only [List.cons_append, sourceFrame]
      rw [if_neg (by omega)]
    refine ⟨?_, h2'⟩
    rw [← h1, List.cons_append]
    cases op with
    | move f d =>
      simp only [originSpec]
      rw [if_neg]
      rw [h2]
      exact hl [] later f d rfl
    | new a => simp only [originSpec]; rw [if_neg (by omega)]
    | newList a v => simp only [originSpec]; rw [if_neg (by omega)]
    | newArray a k => simp only [originSpec]; rw [if_neg (by omega)]
    | origo f => simp only [originSpec]; rw [if_neg (by omega)]
    | copy f => simp only [originSpec]; rw [if_neg (by omega)]
    | deepcopy f => simp only [originSpec]; rw [if_neg (by omega)]

omit [Field K] in
/-- The source of a deep copy is the copy itself, and it is not the source of a frame made before. -/
theorem C113_deep {hist : List (FOp A K)} (hh : FineHist hist) (f : Nat) :
    sourceFrame (.deepcopy f :: hist) (madeIn hist) = madeIn hist ∧
      ∀ g < madeIn hist, sourceFrame (.deepcopy f :: hist) g ≠ madeIn hist := by
  refine ⟨by simp [sourceFrame], fun g hg => ?_⟩
  have key : ∀ hist : List (FOp A K), FineHist hist → ∀ g < madeIn hist, sourceFrame hist g < madeIn hist := by
    intro hist
    induction hist with
    | nil => intro _ g hg; simp [madeIn] at hg
    | cons op hist ih =>
      intro hh g hg
      have hle : madeIn hist ≤ madeIn (op :: hist) := by
        unfold madeIn
        rw [List.filter_cons]
        split <;> simp
      have hle' : madeIn (op :: hist) ≤ madeIn hist + 1 := by
        unfold madeIn
        rw [List.filter_cons]
        split <;> simp
      simp only [sourceFrame]
      split
      · cases op with
        | copy f =>
          have := ih hh.2 f hh.1
          simp only
          omega
        | _ => simp only; omega
      · have := ih hh.2 g (by omega)
        omega
  have := key hist hh g hg
  simp only [sourceFrame]
  rw [if_neg (by omega)]
  omega

/-- A frame made from an array of the caller shares this array: moving the frame changes the array, and every other frame made
from it. -/
theorem C113_argument (w : FWorld A K) (a b : A) {h : Nat} {v : V3 K} (hv : w.arrays[h]? = some v) (d : V3 K) :
    ∃ w', w.run [.newArray a h, .newArray b h, .move w.frames.length d] = some w' ∧ w'.arrays[h]? = some (v + d) ∧
      w'.originOf w.frames.length = some (v + d) ∧ w'.originOf (w.frames.length + 1) = some (v + d) := by
  have hl : h < w.arrays.length := (List.getElem?_eq_some_iff.1 hv).1
  refine ⟨⟨w.arrays.set h (v + d), w.frames ++ [⟨a, some h⟩] ++ [⟨b, some h⟩]⟩, ?_, ?_, ?_, ?_⟩
  · have s1 : w.step (.newArray a h) = some ⟨w.arrays, w.frames ++ [⟨a, some h⟩]⟩ := if_pos hl
    have s2 : FWorld.step ⟨w.arrays, w.frames ++ [⟨a, some h⟩]⟩ (.newArray b h) =
        some ⟨w.arrays, w.frames ++ [⟨a, some h⟩] ++ [⟨b, some h⟩]⟩ := if_pos hl
    have s3 : FWorld.step ⟨w.arrays, w.frames ++ [⟨a, some h⟩] ++ [⟨b, some h⟩]⟩ (.move w.frames.length d) =
        some ⟨w.arrays.set h (v + d), w.frames ++ [⟨a, some h⟩] ++ [⟨b, some h⟩]⟩ := by
      simp [FWorld.step, FWorld.origoArr, hv]
    simp only [FWorld.run, List.foldlM_cons, List.foldlM_nil, s1, s2, s3, Option.bind_eq_bind, Option.bind_some, Option.pure_def]
  · simp [hl]
  · simp [FWorld.originOf, hl]
  · simp [FWorld.originOf, hl]

end

/-- Two frames made one after the other from the same array are not independent, and the array of the caller does not stay. -/
theorem C113_argument_false : ¬ ∀ (w w' : FWorld Unit ℚ) (h : Nat) (v d : V3 ℚ), w.arrays[h]? = some v →
    w.run [.newArray () h, .newArray () h, .move w.frames.length d] = some w' →
    w'.arrays[h]? = some v ∧ w'.originOf (w.frames.length + 1) = some v := by
  intro h
  have := h ⟨[⟨1, 2, 3⟩], []⟩ ⟨[⟨2, 2, 3⟩], [⟨(), some 0⟩, ⟨(), some 0⟩]⟩ 0 ⟨1, 2, 3⟩ ⟨1, 0, 0⟩ rfl (by
    simp [FWorld.run, FWorld.step, FWorld.origoArr]
    decide +kernel)
  exact absurd this.2 (by decide +kernel)

/-- A frame, a shallow copy and a deep copy of it: moving the shallow copy moves the frame, but not the deep copy. -/
example : FineHist (A := Unit) (K := ℚ) [.move 1 ⟨1, 0, 0⟩, .deepcopy 0, .copy 0, .newList () ⟨5, 5, 5⟩] :=
  ⟨show 1 < 3 by decide, show 0 < 2 by decide, show 0 < 1 by decide, trivial, trivial⟩

example : (FWorld.mk (A := Unit) (K := ℚ) [] []).run [.newList () ⟨5, 5, 5⟩, .copy 0, .deepcopy 0, .move 1 ⟨1, 0, 0⟩] =
    some ⟨[⟨6, 5, 5⟩, ⟨5, 5, 5⟩], [⟨(), some 0⟩, ⟨(), some 0⟩, ⟨(), some 1⟩]⟩ := by
  simp [FWorld.run, FWorld.step, FWorld.origoArr]
  decide +kernel

end PM
