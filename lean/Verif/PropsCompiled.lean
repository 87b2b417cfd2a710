import Verif.Compiled
import Verif.PropsStack
import Verif.PropsCloud
import Verif.PropsFrameMesh
import Verif.TopoLemmas

/-!
# C133: clouds in compiled functions, topologies in functions of NumPy
-/

namespace PM

section
variable {K : Type} [Field K]

/-! ## specification -/

/-- The product of a matrix, given by rows, with a vector. -/
def IsProduct (A : V3 (V3 K)) (c r : V3 K) : Prop :=
  r.x = A.x.x * c.x + A.x.y * c.y + A.x.z * c.z ∧ r.y = A.y.x * c.x + A.y.y * c.y + A.y.z * c.z ∧
    r.z = A.z.x * c.x + A.z.y * c.y + A.z.z * c.z

/-- The constructor of the base class keeps the array, whatever comes with it. -/
def KeepsArray (super : List (V3 K) → List (Option (List Int)) → Option (List (V3 K))) : Prop :=
  ∀ x more, super x more = some x

/-- Two clouds with the same positions and the same indices. -/
structure SameCloud (c d : PyCloud K) : Prop where
  places : d.x.map d.frame.place = c.x.map c.frame.place
  inds : d.inds = c.inds

/-! ## compiled functions -/

theorem showCoords_get (A : V3 (V3 K)) (coords : List (V3 K)) (order : List Nat) (res : List (V3 K)) (i : Nat)
    (hl : res.length = coords.length) :
    (order.foldl (showRow A coords) res)[i]? =
      if i ∈ order then (coords[i]?).map (fun c => ⟨V3.dot A.x c, V3.dot A.y c, V3.dot A.z c⟩) else res[i]? := by
  induction order generalizing res with
  | nil => simp
  | cons k l ih =>
    rw [List.foldl_cons, showRow]
    cases hk : coords[k]? with
    | none =>
      simp only
      rw [ih res hl]
      by_cases hil : i ∈ l
      · simp [hil]
      · by_cases hik : i = k
        · subst hik
          have h1 : res[i]? = none := by
            rw [List.getElem?_eq_none_iff] at hk ⊢
            omega
          simp [hil, hk, h1]
        · simp [hil, hik]
    | some c =>
      simp only
      rw [ih _ (by simpa using hl)]
      by_cases hil : i ∈ l
      · simp [hil]
      · by_cases hik : i = k
        · subst hik
          have h1 : i < res.length := by
            have := (List.getElem?_eq_some_iff.1 hk).1
            omega
          simp [hil, hk, h1]
        · have : k ≠ i := fun h => hik h.symm
          simp [hil, hik, this]

/-- **C133** `show_coords`: in whatever order the rows are done, each is the product of the matrix with the point. -/
theorem C133_show (A : V3 (V3 K)) {order : List Nat} {coords : List (V3 K)} (h : order.Perm (List.range coords.length)) :
    List.Forall₂ (IsProduct A) coords (showCoords A order coords) := by
  have hlen : (showCoords A order coords).length = coords.length := by
    unfold showCoords
    have : ∀ (l : List Nat) (res : List (V3 K)), (l.foldl (showRow A coords) res).length = res.length := by
      intro l
      induction l with
      | nil => intro res; rfl
      | cons k l ih =>
        intro res
        rw [List.foldl_cons, ih, showRow]
        cases coords[k]? with
        | none => rfl
        | some c => simp
    rw [this]
    simp
  rw [List.forall₂_iff_get]
  refine ⟨hlen.symm, fun i h1 h2 => ?_⟩
  have hi : (showCoords A order coords)[i]? = some ⟨V3.dot A.x coords[i], V3.dot A.y coords[i], V3.dot A.z coords[i]⟩ := by
    unfold showCoords
    rw [showCoords_get _ _ _ _ _ (by simp), if_pos (h.mem_iff.2 (by simpa using h1))]
    simp [List.getElem?_eq_getElem h1]
  rw [List.getElem?_eq_getElem h2, Option.some.injEq] at hi
  simp only [List.get_eq_getElem]
  rw [hi]
  refine ⟨?_, ?_, ?_⟩ <;> simp [V3.dot]

/-- **C133** the attributes `x`, `y`, `z` in compiled functions are the coordinates in the frame of the cloud, the place of each point
being that of the object. -/
theorem C133_attributes {c : PyCloud K} (hF : c.frame.Ortho) :
    (∀ axis, (unboxCloud c).col axis = c.col axis (some c.frame)) ∧ (unboxCloud c).inds = c.inds ∧
    ∀ k : Nat, k < c.x.length → ∃ x y z, ((unboxCloud c).col 0)[k]? = some x ∧ ((unboxCloud c).col 1)[k]? = some y ∧
      ((unboxCloud c).col 2)[k]? = some z ∧ (c.x.map (pcShow c.frame none))[k]? = some (c.frame.place ⟨x, y, z⟩) := by
  refine ⟨fun axis => ?_, rfl, fun k hk => ?_⟩
  · unfold NativeCloud.col PyCloud.col unboxCloud
    have : c.x.map (pcShow c.frame (some c.frame)) = c.x := by
      conv_rhs => rw [← List.map_id c.x]
      exact List.map_congr_left fun x _ => C45_own hF x
    rw [this]
  · refine ⟨c.x[k].x, c.x[k].y, c.x[k].z, ?_, ?_, ?_, ?_⟩ <;>
      simp [unboxCloud, NativeCloud.col, List.getElem?_eq_getElem hk, pcShow_none]

/-- **C133** if the frame of the cloud is the ambient one they are what the methods `x()`, `y()`, `z()` return. -/
theorem C133_attributes_partial {c : PyCloud K} (hF : ∀ p, c.frame.place p = p) (axis : Fin 3) :
    (unboxCloud c).col axis = c.col axis none := by
  unfold NativeCloud.col PyCloud.col unboxCloud
  have : c.x.map (pcShow c.frame none) = c.x := by
    conv_rhs => rw [← List.map_id c.x]
    exact List.map_congr_left fun x _ => by rw [pcShow_none, hF]; rfl
  rw [this]

omit [Field K] in
/-- **C133** `obj[idx]` in compiled functions: the rows that indexing the object gives, as an array. -/
theorem C133_get {c : PyCloud K} {key : PCKey} {d : PCloud (V3 K)} (h : PCloud.get ⟨c.x, c.inds⟩ key = some d) :
    (unboxCloud c).get key = some d.arr := by
  unfold PCloud.get at h
  simp only [Option.bind_eq_some_iff, Option.map_eq_some_iff] at h
  obtain ⟨i, _, a, ha, rfl⟩ := h
  exact ha

/-- **C133** `PointCloud(data, ..., frame=, inds=)`: a new cloud has what the constructor of its base made of the data, the frame it is given or
the ambient one, and the indices it is given by name. -/
theorem C133_new {super : List (V3 K) → List (Option (List Int)) → Option (List (V3 K))} {data : List (V3 K)}
    {more : List (Option (List Int))} {frame : Option (CFrame K)} {inds : Option (List Int)} {c : PyCloud K}
    (h : newCloud super data more frame inds = some c) :
    super data more = some c.x ∧ c.inds = inds ∧ (∀ F, frame = some F → c.frame = F) ∧ (frame = none → c.frame = ambFrame) := by
  unfold newCloud at h
  obtain ⟨x, hx, rfl⟩ := Option.map_eq_some_iff.1 h
  exact ⟨hx, rfl, fun F hF => by rw [hF]; rfl, fun hF => by rw [hF]; rfl⟩

/-- **C133** what a compiled function returns: the indices are gone and the frame is the ambient one, whatever they were and whatever
the base class does with the second argument. -/
theorem C133_return_exact {super : List (V3 K) → List (Option (List Int)) → Option (List (V3 K))} {f : NativeCloud K → NativeCloud K}
    {c d : PyCloud K} (h : jitCall super f c = some d) :
    d.inds = none ∧ (∀ p, d.frame.place p = p) ∧ super (f (unboxCloud c)).data [(f (unboxCloud c)).inds] = some d.x := by
  unfold jitCall boxCloud newCloud at h
  obtain ⟨x, hx, rfl⟩ := Option.map_eq_some_iff.1 h
  refine ⟨rfl, fun p => ?_, hx⟩
  ext <;> simp [ambFrame, CFrame.place]

/-- **C133** a cloud without indices in the ambient frame comes back from a compiled function that returns its argument. -/
theorem C133_return_partial {super : List (V3 K) → List (Option (List Int)) → Option (List (V3 K))} (hs : KeepsArray super)
    {c : PyCloud K} (hi : c.inds = none) (hF : ∀ p, c.frame.place p = p) :
    ∃ d, jitCall super id c = some d ∧ SameCloud c d := by
  refine ⟨⟨c.x, ambFrame, none⟩, ?_, ?_, hi.symm⟩
  · simp [jitCall, boxCloud, newCloud, unboxCloud, hs c.x]
  · refine List.map_congr_left fun p _ => ?_
    rw [hF]
    ext <;> simp [ambFrame, CFrame.place]

end

/-! ## functions of NumPy -/

/-- **C133** `np.unique` of a topology: the numbers its cells use, each once and in order; with `return_counts` how often each is used. -/
theorem C133_unique {R : Type} (ext : String → List Topo → R) (t : Topo) (counts : Bool) :
    ∃ u cs, npCall ext .unique [.topo t] counts = .values u cs ∧ u.Pairwise (· < ·) ∧ (∀ n, n ∈ u ↔ ∃ row ∈ t, n ∈ row) ∧
      (counts = false → cs = none) ∧
      (counts = true → ∃ l, cs = some l ∧ List.Forall₂ (fun n k => k = (t.map fun row => row.count n).sum) u l) := by
  refine ⟨_, _, rfl, sorted_npUnique _, fun n => ?_, fun h => by simp [unique2d, h], fun h => ?_⟩
  · simp [unique2d, mem_npUnique]
  · refine ⟨(npUnique t.flatten).map fun n => t.flatten.count n, by simp [unique2d, h], ?_⟩
    rw [List.forall₂_map_right_iff]
    apply List.forall₂_same.2
    intro n _
    rw [List.count_flatten]

/-- **C133** `np.vstack` of topologies: a topology with all their cells in order. -/
theorem C133_vstack {R : Type} (ext : String → List Topo → R) {ts : List Topo} (h : ts ≠ []) (counts : Bool) (more : List NpArg) :
    npCall ext .vstack (.seq (ts.map Sum.inl) :: more) counts = .topo ts.flatten := by
  have h1 : ((ts.map Sum.inl).mapM fun s : Topo ⊕ List (List Int) => s.getLeft?) = some ts := by
    induction ts with
    | nil => rfl
    | cons t ts ih =>
      cases ts with
      | nil => rfl
      | cons s ss =>
        rw [List.map_cons, List.mapM_cons, ih (by simp)]
        rfl
  have h2 : ((ts.map Sum.inl).map fun s : Topo ⊕ List (List Int) => s.isLeft).all id = true := by simp
  unfold npCall arrayFunction npTypes
  simp only [h2, if_true, topoVstackCall, h1, C46_vstack h]

/-- **C133** topologies and arrays of NumPy are not stacked: one array among them and a `TypeError` is raised. -/
theorem C133_vstack_mixed {R : Type} (ext : String → List Topo → R) {l : List (Topo ⊕ List (List Int))} {a : List (List Int)}
    (h : Sum.inr a ∈ l) (counts : Bool) (more : List NpArg) : npCall ext .vstack (.seq l :: more) counts = .raised "TypeError" := by
  have h2 : (l.map Sum.isLeft).all id = false := by
    rw [List.all_eq_false]
    exact ⟨false, List.mem_map.2 ⟨_, h, rfl⟩, by simp⟩
  unfold npCall arrayFunction npTypes
  simp [h2]

/-- **C133** `__array_function__` itself: if one of the types is not that of topologies, both functions are refused, whatever the arguments are. -/
theorem C133_refused {R : Type} (ext : String → List Topo → R) {types : List Bool} (h : false ∈ types) (args : List NpArg) (counts : Bool) :
    arrayFunction ext .unique types args counts = .notImplemented ∧ arrayFunction ext .vstack types args counts = .notImplemented := by
  have h2 : types.all id = false := List.all_eq_false.2 ⟨false, h, by simp⟩
  simp [arrayFunction, h2]

/-- **C133** a list with anything but topologies is an `AttributeError` even if the types are accepted. -/
theorem C133_wrapped {R : Type} (ext : String → List Topo → R) {types : List Bool} (h : false ∉ types) {l : List (Topo ⊕ List (List Int))}
    {a : List (List Int)} (ha : Sum.inr a ∈ l) (more : List NpArg) (counts : Bool) :
    arrayFunction ext .vstack types (.seq l :: more) counts = .raised "AttributeError" := by
  have h2 : types.all id = true := List.all_eq_true.2 fun b hb => by
    cases b with
    | true => rfl
    | false => exact absurd hb h
  have h3 : (l.mapM fun s : Topo ⊕ List (List Int) => s.getLeft?) = none := by
    induction l with
    | nil => cases ha
    | cons s l ih =>
      rw [List.mapM_cons]
      cases s with
      | inr b => rfl
      | inl b =>
        rw [ih ((List.mem_cons.1 ha).resolve_left (by simp))]
        rfl
  simp [arrayFunction, h2, topoVstackCall, h3]

/-- A case: a list with a topology and an array, with types that do not tell. -/
example : arrayFunction (fun _ _ => ()) .vstack [true] [.seq [.inl [[0, 1]], .inr [[1, 2]]]] false = .raised "AttributeError" :=
  C133_wrapped _ (by simp) (a := [[1, 2]]) (by simp) [] false

/-- **C133** any other function of NumPy that is called with topologies only is applied to the arrays they wrap. -/
theorem C133_other_partial {R : Type} (ext : String → List Topo → R) (name : String) (ts : List Topo) (counts : Bool) :
    npCall ext (.other name) (ts.map NpArg.topo) counts = .ext (ext name ts) := by
  have h1 : (ts.map NpArg.topo).mapM NpArg.wrapped = some ts := by
    induction ts with
    | nil => rfl
    | cons t ts ih => rw [List.map_cons, List.mapM_cons, ih]; rfl
  simp [npCall, arrayFunction, h1]

/-- **C133** (disagreement) with any argument that is not a topology, such as a list of topologies or the number of an axis, they raise
an `AttributeError`. -/
theorem C133_other_false {R : Type} (ext : String → List Topo → R) (name : String) {args : List NpArg} {a : NpArg} (ha : a ∈ args)
    (hn : ∀ t, a ≠ .topo t) (counts : Bool) : npCall ext (.other name) args counts = .raised "AttributeError" := by
  have h1 : args.mapM NpArg.wrapped = none := by
    have hw : a.wrapped = none := by
      cases a with
      | topo t => exact absurd rfl (hn t)
      | _ => rfl
    induction args with
    | nil => cases ha
    | cons b l ih =>
      rw [List.mapM_cons]
      rcases List.mem_cons.1 ha with rfl | h
      · rw [hw]; rfl
      · rw [ih h]
        cases b.wrapped <;> rfl
  simp [npCall, arrayFunction, h1]

/-- **C133** (disagreement) further positional arguments of `np.unique` have no effect: asking for indices, inverses and counts this way
gives the values only. -/
theorem C133_unique_false {R : Type} (ext : String → List Topo → R) (t : Topo) (more : List NpArg) (counts : Bool) :
    npCall ext .unique (.topo t :: more) counts = npCall ext .unique [.topo t] counts ∧
    ∃ u, npCall ext .unique (.topo t :: more) false = .values u none := ⟨rfl, _, rfl⟩

/-! ## witnesses -/

/-- A cloud in a frame that is turned by a quarter and moved, with indices. -/
def jitCloud : PyCloud ℚ := ⟨[⟨1, 2, 3⟩, ⟨4, 5, 6⟩], ⟨⟨0, 1, 0⟩, ⟨-1, 0, 0⟩, ⟨0, 0, 1⟩, ⟨10, 0, 0⟩⟩, some [7, 9]⟩

/-- **C133** is false: in a frame of its own, the attribute `x` of a cloud in a compiled function is not what `x()` returns. -/
theorem C133_attributes_false : ¬ ∀ (c : PyCloud ℚ) (axis : Fin 3), c.frame.Ortho → (unboxCloud c).col axis = c.col axis none := by
  intro h
  have := h jitCloud 0 (by constructor <;> decide +kernel)
  revert this
  decide +kernel

/-- **C133** is false: a compiled function that returns its argument loses the indices. -/
theorem C133_return_inds_false : ¬ ∀ (super : List (V3 ℚ) → List (Option (List Int)) → Option (List (V3 ℚ))) (c d : PyCloud ℚ),
    KeepsArray super → (∀ p, c.frame.place p = p) → jitCall super id c = some d → SameCloud c d := by
  intro h
  have := (h (fun x _ => some x) ⟨[⟨1, 2, 3⟩], ambFrame, some [7]⟩ _ (fun _ _ => rfl) (fun p => by ext <;> simp [ambFrame, CFrame.place]) rfl).inds
  cases this

/-- **C133** is false: it loses the frame, so that the points are elsewhere. -/
theorem C133_return_frame_false : ¬ ∀ (super : List (V3 ℚ) → List (Option (List Int)) → Option (List (V3 ℚ))) (c d : PyCloud ℚ),
    KeepsArray super → c.inds = none → c.frame.Ortho → jitCall super id c = some d → SameCloud c d := by
  intro h
  have := (h (fun x _ => some x) ⟨jitCloud.x, jitCloud.frame, none⟩ _ (fun _ _ => rfl) rfl (by constructor <;> decide +kernel) rfl).places
  revert this
  decide +kernel

example : (unboxCloud jitCloud).col 0 = [1, 4] ∧ jitCloud.col 0 none = [8, 5] ∧ (unboxCloud jitCloud).inds = some [7, 9] := by decide +kernel
example : npCall (fun _ _ => ()) .unique [.topo [[3, 1], [1, 4]]] true = .values [1, 3, 4] (some [2, 1, 1]) := by decide +kernel
example : npCall (fun _ _ => ()) .vstack [.seq [.inl [[0, 1]], .inl [[2, 3, 4]]]] false = .topo [[0, 1], [2, 3, 4]] := by decide +kernel
example : npCall (fun _ _ => ()) (.other "concatenate") [.seq [.inl [[0, 1]], .inl [[2, 3, 4]]]] false = .raised "AttributeError" := by
  decide +kernel

end PM
