import Verif.Readers
import Verif.TopoLemmas
import Mathlib.Data.List.Induction

/-!
# C121: reading meshes and attaching data; C122: sections by name
-/

namespace PM

/-! ## reading meshes -/

section
variable {K : Type}

/-- The argument is something that holds the mesh `m`: an existing file, or an object of PyVista (if there is PyVista). -/
def MeshArg.Holds (hasPv : Bool) (a : MeshArg K) (m : RawMesh K) : Prop :=
  a = .file true (some m) ∨ (hasPv = true ∧ (a = .polyData (some m) ∨ a = .grid (some m)))

theorem readOne_iff {hasPv : Bool} {a : MeshArg K} (h : a ≠ .none) {r : ReadRes K} :
    readOne hasPv a = some r ↔ ∃ m, a.Holds hasPv m ∧ r = .mesh m := by
  cases a with
  | none => exact absurd rfl h
  | file t c => cases t <;> cases c <;> simp [readOne, MeshArg.Holds, eq_comm]
  | polyData c => cases hasPv <;> cases c <;> simp [readOne, MeshArg.Holds, eq_comm]
  | grid c => cases hasPv <;> cases c <;> simp [readOne, MeshArg.Holds, eq_comm]
  | other => simp [readOne, MeshArg.Holds]

/-- **C121** `input_to_mesh` gives the meshes of all arguments in their order, and is an error if and only if one of them cannot be read; for
arguments other than `None`. -/
theorem C121_read_partial {hasPv : Bool} {args : List (MeshArg K)} (h : ∀ a ∈ args, a ≠ .none) :
    ((∃ r, inputToMesh hasPv args = some r) ↔ ∀ a ∈ args, ∃ m, a.Holds hasPv m) ∧
    ∀ r, inputToMesh hasPv args = some r → r.length = args.length ∧ ∀ (i : Nat) (a : MeshArg K), args[i]? = some a →
      ∃ m, a.Holds hasPv m ∧ r[i]? = some (.mesh m) := by
  have key : ∀ r, inputToMesh hasPv args = some r → r.length = args.length ∧ ∀ (i : Nat) (a : MeshArg K), args[i]? = some a →
      ∃ m, a.Holds hasPv m ∧ r[i]? = some (.mesh m) := by
    intro r hr
    refine ⟨mapM_length hr, fun i a hi => ?_⟩
    obtain ⟨b, h1, h2⟩ := mapM_get hr hi
    obtain ⟨m, h3, rfl⟩ := (readOne_iff (h a (List.mem_of_getElem? hi))).1 h1
    exact ⟨m, h3, h2⟩
  refine ⟨⟨fun ⟨r, hr⟩ a ha => ?_, fun hall => ?_⟩, key⟩
  · obtain ⟨i, hi⟩ := List.getElem?_of_mem ha
    obtain ⟨m, hm, -⟩ := (key r hr).2 i a hi
    exact ⟨m, hm⟩
  · obtain ⟨r, hr, -⟩ := mapM_exists (P := fun _ _ _ => True) (f := readOne hasPv) (l := args) fun i a hi => by
      obtain ⟨m, hm⟩ := hall a (List.mem_of_getElem? hi)
      exact ⟨.mesh m, (readOne_iff (h a (List.mem_of_getElem? hi))).2 ⟨m, hm, rfl⟩, trivial⟩
    exact ⟨r, hr⟩

/-- **C121** `None` cannot be read, but it is false that this is an error: the entry is an empty list. -/
theorem C121_read_false (hasPv : Bool) : inputToMesh (K := K) hasPv [.none] = some [.list []] ∧ ∀ m, ¬ (MeshArg.none : MeshArg K).Holds hasPv m :=
  ⟨rfl, fun m h => by simp [MeshArg.Holds] at h⟩

example : inputToMesh true [MeshArg.file true (some ⟨[[(0 : ℚ)]], [("line", [[0, 0]])]⟩), .grid (some ⟨[], []⟩)] =
    some [.mesh ⟨[[0]], [("line", [[0, 0]])]⟩, .mesh ⟨[], []⟩] := by decide +kernel

end

/-! ## attaching data -/

/-- What a setter leaves. -/
def AttachArg.value : AttachArg → Option (Option Nat)
  | .none => some Option.none
  | .data d => some (some d)
  | .other => Option.none

/-- The last setter of mesh `m` that got something it accepts left `v`. -/
def LastSet (ops : List (Nat × AttachArg)) (m : Nat) (v : Option Nat) : Prop :=
  ∃ pre arg post, ops = pre ++ (m, arg) :: post ∧ arg.value = some v ∧ ∀ o ∈ post, o.1 = m → o.2.value = none

theorem setAll_append (s : Attached) (a b : List (Nat × AttachArg)) : setAll s (a ++ b) = setAll (setAll s a) b := by
  rw [setAll, List.foldl_append]; rfl

theorem setAll_skip (s : Attached) (ops : List (Nat × AttachArg)) (m : Nat) (h : ∀ o ∈ ops, o.1 = m → o.2.value = none) :
    (setAll s ops).data m = s.data m := by
  induction ops generalizing s with
  | nil => rfl
  | cons o ops ih =>
    rw [show o :: ops = [o] ++ ops from rfl, setAll_append, ih _ fun o' ho' => h o' (List.mem_cons_of_mem _ ho')]
    obtain ⟨k, arg⟩ := o
    have hk := h (k, arg) List.mem_cons_self
    cases arg with
    | none =>
      have : m ≠ k := fun e => by simpa [AttachArg.value] using hk e.symm
      simp [setAll, setData, Function.update_of_ne this]
    | data d =>
      have : m ≠ k := fun e => by simpa [AttachArg.value] using hk e.symm
      simp [setAll, setData, Function.update_of_ne this]
    | other => rfl

/-- **C121** after any sequence of assignments, accepted or refused, the data of a mesh are those of the last accepted assignment to this
mesh, or the first ones. -/
theorem C121_attach (s : Attached) (ops : List (Nat × AttachArg)) (m : Nat) :
    (∀ v, LastSet ops m v → (setAll s ops).data m = v) ∧
    ((∀ o ∈ ops, o.1 = m → o.2.value = none) → (setAll s ops).data m = s.data m) := by
  refine ⟨?_, setAll_skip s ops m⟩
  rintro v ⟨pre, arg, post, rfl, hv, hpost⟩
  rw [setAll_append, show (m, arg) :: post = [(m, arg)] ++ post from rfl, setAll_append, setAll_skip _ _ _ hpost]
  cases arg with
  | none => simp only [AttachArg.value, Option.some.injEq] at hv; subst hv; simp [setAll, setData]
  | data d => simp only [AttachArg.value, Option.some.injEq] at hv; subst hv; simp [setAll, setData]
  | other => simp [AttachArg.value] at hv

/-- **C121** the container of attached data is the mesh, if nothing is given to two meshes. -/
theorem C121_container_partial (ops : List (Nat × AttachArg)) (h : ∀ m m' d, (m, AttachArg.data d) ∈ ops → (m', AttachArg.data d) ∈ ops → m = m') :
    ∀ m d, (setAll ⟨fun _ => none, fun _ => none⟩ ops).data m = some d → (setAll ⟨fun _ => none, fun _ => none⟩ ops).container d = some m := by
  suffices H : ∀ ops : List (Nat × AttachArg), (∀ m m' d, (m, AttachArg.data d) ∈ ops → (m', AttachArg.data d) ∈ ops → m = m') →
      ∀ m d, (setAll ⟨fun _ => none, fun _ => none⟩ ops).data m = some d →
        (setAll ⟨fun _ => none, fun _ => none⟩ ops).container d = some m ∧ (m, AttachArg.data d) ∈ ops from fun m d hd => (H ops h m d hd).1
  clear h ops
  intro ops
  induction ops using List.reverseRecOn with
  | nil => intro _ m d h; simp [setAll] at h
  | append_singleton ops o ih =>
    intro hex m d
    have ih' := ih fun m m' d h1 h2 => hex m m' d (List.mem_append_left _ h1) (List.mem_append_left _ h2)
    rw [setAll_append]
    obtain ⟨k, arg⟩ := o
    cases arg with
    | none =>
      simp only [setAll, setData, List.foldl_cons, List.foldl_nil, Option.getD_some]
      intro hd
      by_cases hm : m = k
      · subst hm; simp at hd
      · rw [Function.update_of_ne hm] at hd
        have := ih' m d hd
        exact ⟨this.1, List.mem_append_left _ this.2⟩
    | data e =>
      simp only [setAll, setData, List.foldl_cons, List.foldl_nil, Option.getD_some]
      intro hd
      by_cases hm : m = k
      · subst hm
        rw [Function.update_self] at hd
        cases hd
        exact ⟨by simp, by simp⟩
      · rw [Function.update_of_ne hm] at hd
        have := ih' m d hd
        have hne : d ≠ e := by
          rintro rfl
          exact hm (hex m k d (List.mem_append_left _ this.2) (by simp))
        rw [Function.update_of_ne hne]
        exact ⟨this.1, List.mem_append_left _ this.2⟩
    | other =>
      intro hd
      have := ih' m d hd
      exact ⟨this.1, List.mem_append_left _ this.2⟩

/-- **C121** is false for data given to two meshes: both have them, and the container is the second. -/
theorem C121_container_false : (setAll ⟨fun _ => none, fun _ => none⟩ [(0, .data 7), (1, .data 7)]).data 0 = some 7 ∧
    (setAll ⟨fun _ => none, fun _ => none⟩ [(0, .data 7), (1, .data 7)]).container 7 = some 1 := by
  constructor <;> rfl

example : LastSet [(0, .data 3), (1, .none), (0, .other)] 0 (some 3) := ⟨[], .data 3, _, rfl, rfl, by simp [AttachArg.value]⟩

/-- **C121** frames: an array is what is read afterwards, from this mesh and from every mesh with the same data, and from no other; without
cells, or with something else than an array, it is an error. -/
theorem C121_frames {β : Type} (s : Attached) (frames : Nat → Option β) (m : Nat) :
    (∀ f d, s.data m = some d → ∃ g, setFrames s frames m (.arr f) = some g ∧ getFrames s g m = some (some f) ∧
      ∀ m', (s.data m' = some d → getFrames s g m' = some (some f)) ∧ (s.data m' ≠ some d → getFrames s g m' = getFrames s frames m')) ∧
    (s.data m = none → ∀ v, setFrames s frames m v = none) ∧ setFrames s frames m .other = none := by
  refine ⟨fun f d hd => ⟨Function.update frames d (some f), by simp [setFrames, hd], by simp [getFrames, hd], fun m' => ⟨fun h => by simp [getFrames, h],
    fun h => ?_⟩⟩, fun h v => by simp [setFrames, h], by cases h : s.data m <;> simp [setFrames, h]⟩
  cases hm : s.data m' with
  | none => simp [getFrames, hm]
  | some e =>
    have : e ≠ d := by rintro rfl; exact h hm
    simp [getFrames, hm, Function.update_of_ne this]

/-! ## sections by name -/

section
variable {V : Type}

/-- The shapes, and the functions of the library for them. -/
def shapeFn : List (String × String) :=
  [("CHS", "CHS"), ("RS", "RS"), ("RHS", "RHS"), ("I", "i_section"), ("TFI", "TFI"), ("PFC", "PFC"), ("TFC", "TFC"), ("T", "tee_section")]

/-- The thicknesses of a section with the given parameters: `t`, or those of flange and web. -/
def Thickness (least : V → V → V) (p : String → Option V) (ps : List String) (ms : V) : Prop :=
  ("t" ∈ ps → p "t" = some ms) ∧ ("t_f" ∈ ps → ∃ f w, p "t_f" = some f ∧ p "t_w" = some w ∧ ms = least f w) ∧
    ("t" ∉ ps → "t_f" ∉ ps → p "t" = some ms)

theorem allFromKwargs_mem {keys : List String} {p : String → Option V} {k : String} {v : V} :
    (k, v) ∈ allFromKwargs keys p ↔ k ∈ keys ∧ p k = some v := by
  simp only [allFromKwargs, List.mem_filterMap, Option.map_eq_some_iff, Prod.mk.injEq]
  constructor
  · rintro ⟨a, ha, b, hb, rfl, rfl⟩; exact ⟨ha, hb⟩
  · rintro ⟨h1, h2⟩; exact ⟨k, h1, v, h2, rfl, rfl⟩

theorem callLib_all {fn : String} {keys : List String} {p : String → Option V} (h : sectionLib fn = some keys) (hall : ∀ k ∈ keys, ∃ v, p k = some v) :
    callLib ⟨fn, allFromKwargs keys p⟩ = some ⟨fn, allFromKwargs keys p⟩ := by
  simp only [callLib, h, Option.bind_some]
  rw [if_pos]
  constructor
  · intro k hk
    obtain ⟨v, hv⟩ := hall k hk
    exact List.mem_map.2 ⟨(k, v), allFromKwargs_mem.2 ⟨hk, hv⟩, rfl⟩
  · intro k hk
    obtain ⟨⟨k', v⟩, h1, rfl⟩ := List.mem_map.1 hk
    exact (allFromKwargs_mem.1 h1).1

/-- **C122** for all shapes but rectangular hollow sections: if the parameters of the shape are given (and a thickness, for rectangles), the
section is that of the function of the library with exactly these values, whatever else is given; the longest edge of the mesh is the
least thickness, unless parameters of the mesh are given. -/
theorem C122_section_partial (default : V) (least : V → V → V) {shape fn : String} {ps : List String} (hs : (shape, fn) ∈ shapeFn) (hR : shape ≠ "RHS")
    (hl : sectionLib fn = some ps) {p : String → Option V} (hp : ∀ k ∈ ps, ∃ v, p k = some v) {ms : V} (ht : Thickness least p ps ms)
    {mp : Option (List (String × V))} (hm : ∀ l, mp = some l → ∀ q ∈ l, q.1 ∈ ["l_max", "a_max", "n_max"]) :
    ∃ S, getSection default least shape mp p = some S ∧ S.geom.fn = fn ∧
      (∀ k v, (k, v) ∈ S.geom.args ↔ k ∈ ps ∧ p k = some v) ∧ S.mesh = mp.getD [("l_max", ms)] := by
  have hgen : ∀ g : Call V, genMesh g (mp.getD [("l_max", ms)]) = some ⟨g, mp.getD [("l_max", ms)]⟩ := by
    intro g
    rw [genMesh, if_pos]
    intro k hk
    obtain ⟨q, hq, rfl⟩ := List.mem_map.1 hk
    cases mp with
    | none => simp only [Option.getD_none, List.mem_singleton] at hq; subst hq; simp
    | some l => exact hm l rfl q hq
  obtain ⟨t1, t2, t3⟩ := ht
  simp only [shapeFn, List.mem_cons, Prod.mk.injEq, List.not_mem_nil, or_false] at hs
  have main : ∀ keys, sectionLib fn = some keys → sectionKeys shape = some (fn, keys) → shape ≠ "CHS" → sectionMs least shape p = some ms →
      ∃ S, getSection default least shape mp p = some S ∧ S.geom.fn = fn ∧
      (∀ k v, (k, v) ∈ S.geom.args ↔ k ∈ ps ∧ p k = some v) ∧ S.mesh = mp.getD [("l_max", ms)] := by
    intro keys h1 h2 h3 h4
    have hk : keys = ps := by rw [hl] at h1; exact (Option.some.inj h1).symm
    subst hk
    refine ⟨⟨⟨fn, allFromKwargs keys p⟩, mp.getD [("l_max", ms)]⟩, ?_, rfl, fun k v => allFromKwargs_mem, rfl⟩
    simp only [getSection, sectionGeom, if_neg h3, h2, Option.bind_some, callLib_all h1 hp, h4, hgen]
  rcases hs with ⟨rfl, rfl⟩ | ⟨rfl, rfl⟩ | ⟨rfl, rfl⟩ | ⟨rfl, rfl⟩ | ⟨rfl, rfl⟩ | ⟨rfl, rfl⟩ | ⟨rfl, rfl⟩ | ⟨rfl, rfl⟩
  · simp only [sectionLib, Option.some.injEq] at hl
    subst hl
    obtain ⟨d, hd⟩ := hp "d" (by simp)
    obtain ⟨n, hn⟩ := hp "n" (by simp)
    have h1 := t1 (by simp)
    refine ⟨⟨⟨"CHS", [("d", d), ("t", ms), ("n", n)]⟩, mp.getD [("l_max", ms)]⟩, ?_, rfl, fun k v => ?_, rfl⟩
    · simp [getSection, sectionGeom, hd, h1, hn, callLib, sectionLib, sectionMs, hgen]
    · simp only [List.mem_cons, Prod.mk.injEq, List.not_mem_nil, or_false]
      constructor
      · rintro (⟨rfl, rfl⟩ | ⟨rfl, rfl⟩ | ⟨rfl, rfl⟩) <;> simp [hd, h1, hn]
      · rintro ⟨rfl | rfl | rfl, h⟩
        · rw [hd] at h; simp_all
        · rw [h1] at h; simp_all
        · rw [hn] at h; simp_all
  · simp only [sectionLib, Option.some.injEq] at hl
    subst hl
    exact main _ rfl rfl (by decide) (by simp [sectionMs, t3 (by decide) (by decide)])
  · exact absurd rfl hR
  all_goals
    simp only [sectionLib, Option.some.injEq] at hl
    subst hl
    obtain ⟨f, w, hf, hw, rfl⟩ := t2 (by decide)
    exact main _ rfl rfl (by decide) (by simp [sectionMs, hf, hw])

/-- **C122** is false for rectangular hollow sections, whatever is given: the outer radius is never passed on. -/
theorem C122_rhs_false (default : V) (least : V → V → V) (mp : Option (List (String × V))) (p : String → Option V) :
    getSection default least "RHS" mp p = none := by
  have : callLib ⟨"RHS", allFromKwargs ["d", "b", "t", "n_out", "n_r"] p⟩ = none := by
    simp only [callLib, sectionLib, Option.bind_some]
    rw [if_neg]
    rintro ⟨h, -⟩
    obtain ⟨⟨k, v⟩, h1, h2⟩ := List.mem_map.1 (h "r_out" (by simp))
    simp only at h2
    subst h2
    have := (allFromKwargs_mem.1 h1).1
    revert this
    decide
  simp [getSection, sectionGeom, sectionKeys, this]

/-- **C122** is false for the parameters in the documentation of `get_section`: `n_min` is not known. -/
theorem C122_params_false (default : V) (least : V → V → V) (shape : String) (a b : V) (p : String → Option V) :
    getSection default least shape (some [("n_min", a), ("n_max", b)]) p = none := by
  have : ∀ g : Call V, genMesh g [("n_min", a), ("n_max", b)] = none := by
    intro g
    rw [genMesh, if_neg]
    intro h
    have := h "n_min" (by simp)
    revert this
    decide
  rw [getSection]
  cases sectionGeom default shape p with
  | none => rfl
  | some g => cases sectionMs least shape p with
    | none => rfl
    | some ms => exact this g

/-- **C122** other shapes are refused. -/
theorem C122_unknown (default : V) (least : V → V → V) {shape : String} (h : ∀ fn, (shape, fn) ∉ shapeFn) (mp : Option (List (String × V)))
    (p : String → Option V) : getSection default least shape mp p = none := by
  have h1 : shape ≠ "CHS" := by rintro rfl; exact h "CHS" (by simp [shapeFn])
  have h2 : sectionKeys shape = none := by
    unfold sectionKeys
    split
    · exact absurd (by simp [shapeFn]) (h "RS")
    · exact absurd (by simp [shapeFn]) (h "RHS")
    · exact absurd (by simp [shapeFn]) (h "i_section")
    · exact absurd (by simp [shapeFn]) (h "TFI")
    · exact absurd (by simp [shapeFn]) (h "PFC")
    · exact absurd (by simp [shapeFn]) (h "TFC")
    · exact absurd (by simp [shapeFn]) (h "tee_section")
    · rfl
  simp [getSection, sectionGeom, h1, h2]

/-- **C122** `LineSection` wraps the section with the name that is its first argument; or the section that is its first argument; or the one
given as `wrap`; a `shape` is used if the first argument is no name. What cannot be built is refused. -/
theorem C122_wrap_partial (get : String → Option (SectionObj V)) (rest : List (SecArg V)) (wrap : Option (SectionObj V)) :
    (∀ s shape S, get s = some S → lineSection get (.str s :: rest) wrap shape = some (some S)) ∧
    (∀ s shape, get s = none → lineSection get (.str s :: rest) wrap shape = none) ∧
    (∀ S, lineSection get (.obj S :: rest) wrap none = some (some S)) ∧
    (∀ S, lineSection get [] (some S) none = some (some S)) ∧
    (∀ s S a, get s = some S → (∀ t, a ≠ .str t) → lineSection get (a :: rest) wrap (some s) = some (some S)) := by
  refine ⟨fun s shape S h => by simp [lineSection, h], fun s shape h => by simp [lineSection, h], fun S => rfl, fun S => rfl, fun s S a h ha => ?_⟩
  cases a with
  | str t => exact absurd rfl (ha t)
  | obj S => simp [lineSection, h]
  | other => simp [lineSection, h]

/-- **C122** is false for a `shape` without positional arguments, which is ignored. -/
theorem C122_shape_false (get : String → Option (SectionObj V)) (shape : Option String) : lineSection get [] none shape = some none := rfl

example : getSection (64 : Int) min "I" none (fun k => ([("d", 200), ("b", 100), ("t_f", 10), ("t_w", 6), ("r", 12), ("n_r", 8), ("x", 0)] : List (String × Int)).lookup k) =
    some ⟨⟨"i_section", [("d", 200), ("b", 100), ("t_f", 10), ("t_w", 6), ("r", 12), ("n_r", 8)]⟩, [("l_max", 6)]⟩ := by decide +kernel

example : Thickness min (fun k => ([("t_f", 10), ("t_w", 6)] : List (String × Int)).lookup k) ["t_f", "t_w"] 6 :=
  ⟨by simp, fun _ => ⟨10, 6, by decide, by decide, by decide⟩, by simp⟩

end

end PM
