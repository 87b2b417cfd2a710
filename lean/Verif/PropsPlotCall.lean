import Verif.PlotCall
import Verif.PropsPv

/-!
# C131: the calls of plots

What the arguments of `plot`, `pvplot`, `k3dplot` and `LineData.plot` do.
-/

namespace PM

section
variable {X V : Type}

/-- **C131** (themes): a new plotter has the theme of the argument, or the global one, with the three attributes of the call; all other attributes are
those of this theme. -/
theorem C131_theme (L : PvLib) (title : V) (g : Theme) (a : PvArgs X V) (xs : List X) (r : PlotRes) (p : Plotter X V) (g' : Theme)
    (hp : a.plotter = none) (h : pvplotCall L title g a (some xs) = (some (r, p), g')) :
    ∃ t, (a.theme = .absent ∧ t = g ∨ a.theme = .obj t ∨ ∃ s, a.theme = .name s ∧ themeNamed L s = some t) ∧
      p.theme.edges = a.edges ∧ p.theme.lighting = a.lighting.getD t.lighting ∧ p.theme.edgeColor = a.edgeColor.getD t.edgeColor ∧
      p.theme.color = t.color ∧ p.theme.background = t.background ∧ p.theme.rest = t.rest := by
  have key : ∀ t g₁, prepTheme L g a.theme a.edges a.lighting a.edgeColor = some (themeSet a.edges a.lighting a.edgeColor t, g₁) →
      p.theme = themeSet a.edges a.lighting a.edgeColor t := by
    intro t g₁ e
    simp only [pvplotCall, e, hp, Option.none_or] at h
    cases hn : newPlotter L title (themeSet a.edges a.lighting a.edgeColor t) a with
    | none => rw [hn] at h; simp at h
    | some q =>
      rw [hn] at h
      have hq : q.theme = themeSet a.edges a.lighting a.edgeColor t := by
        simp only [newPlotter] at hn
        split at hn
        · rw [← Option.some.inj hn]
        · cases hn
      have e2 : _ = p := congrArg Prod.snd (Option.some.inj (congrArg Prod.fst h))
      rw [← hq, ← e2]
      simp only [plotEnd]
      split
      · rfl
      · split
        · rfl
        · split <;> rfl
  have fin : ∀ t, p.theme = themeSet a.edges a.lighting a.edgeColor t →
      p.theme.edges = a.edges ∧ p.theme.lighting = a.lighting.getD t.lighting ∧ p.theme.edgeColor = a.edgeColor.getD t.edgeColor ∧
      p.theme.color = t.color ∧ p.theme.background = t.background ∧ p.theme.rest = t.rest := by
    intro t e
    rw [e]
    exact ⟨rfl, rfl, rfl, rfl, rfl, rfl⟩
  cases ht : a.theme with
  | absent => exact ⟨g, .inl ⟨rfl, rfl⟩, fin g (key g _ (by rw [ht]; rfl))⟩
  | obj t => exact ⟨t, .inr (.inl rfl), fin t (key t _ (by rw [ht]; rfl))⟩
  | name s =>
    cases hs : themeNamed L s with
    | none =>
      exfalso
      simp [pvplotCall, ht, prepTheme, hs] at h
    | some t => exact ⟨t, .inr (.inr ⟨s, rfl, hs⟩), fin t (key t g (by rw [ht]; simp [prepTheme, hs]))⟩

/-- **C131** (themes by name): those of PyVista come first; three names are known without PyVista; every other name makes the plot fail and leaves the
global theme alone. -/
theorem C131_named (L : PvLib) (s : String) :
    (∀ t, L.allowed s = some t → themeNamed L s = some t) ∧
    (L.allowed s = none →
      (s = "dark" → ∃ t, themeNamed L s = some t ∧ t.lighting = false ∧ t.edges = L.dark.edges ∧ t.edgeColor = L.dark.edgeColor ∧
        t.color = L.dark.color ∧ t.background = L.dark.background ∧ t.rest = L.dark.rest) ∧
      (s = "bw" → ∃ t, themeNamed L s = some t ∧ t.lighting = true ∧ t.color = "black" ∧ t.edgeColor = "white" ∧ t.background = "white" ∧
        t.edges = L.default.edges ∧ t.rest = L.default.rest) ∧
      (s = "document" → themeNamed L s = some L.document) ∧
      (s ≠ "dark" → s ≠ "bw" → s ≠ "document" → ∀ (title : V) (g : Theme) (a : PvArgs X V) (xs : List X), a.theme = .name s →
        pvplotCall L title g a (some xs) = (none, g))) := by
  refine ⟨fun t h => by simp [themeNamed, h], fun h => ⟨?_, ?_, ?_, ?_⟩⟩
  · rintro rfl
    exact ⟨{ L.dark with lighting := false }, by simp only [themeNamed, h, if_true], rfl, rfl, rfl, rfl, rfl, rfl⟩
  · rintro rfl
    refine ⟨{ L.default with color := "black", lighting := true, edgeColor := "white", background := "white" }, ?_, rfl, rfl, rfl, rfl, rfl, rfl⟩
    simp [themeNamed, h]
  · rintro rfl
    simp [themeNamed, h]
  · intro h1 h2 h3 title g a xs ha
    simp [pvplotCall, prepTheme, ha, themeNamed, h, h1, h2, h3]

/-- **C131** (global theme): a plot with a theme, or whose blocks cannot be made, leaves it alone; any other plot sets edges, and lighting and the colour
of the edges if they are not `None`. -/
theorem C131_global (L : PvLib) (title : V) (g : Theme) (a : PvArgs X V) (items : Option (List X)) :
    (a.theme ≠ .absent ∨ items = none → (pvplotCall L title g a items).2 = g) ∧
    (a.theme = .absent → items.isSome → ∀ g', (pvplotCall L title g a items).2 = g' →
      g'.edges = a.edges ∧ g'.lighting = a.lighting.getD g.lighting ∧ g'.edgeColor = a.edgeColor.getD g.edgeColor ∧
      g'.color = g.color ∧ g'.background = g.background ∧ g'.rest = g.rest) := by
  constructor
  · rintro (h | rfl)
    · cases items with
      | none => rfl
      | some xs =>
        cases ht : a.theme with
        | absent => exact absurd ht h
        | obj t =>
          simp only [pvplotCall, prepTheme, ht]
          split <;> rfl
        | name s =>
          simp only [pvplotCall, prepTheme, ht]
          cases themeNamed L s with
          | none => rfl
          | some t =>
            simp only [Option.map_some]
            split <;> rfl
    · rfl
  · intro ht hi g' hg
    obtain ⟨xs, rfl⟩ := Option.isSome_iff_exists.1 hi
    have : (pvplotCall L title g a (some xs)).2 = themeSet a.edges a.lighting a.edgeColor g := by
      simp only [pvplotCall, prepTheme, ht]
      split <;> rfl
    rw [← hg, this]
    exact ⟨rfl, rfl, rfl, rfl, rfl, rfl⟩

/-- **C131** (negation) a plot has no effect on later ones: with its default arguments `pvplot` switches off the lighting of the global theme of PyVista, so
that a later plot that asks for no change is without light. -/
theorem C131_global_false : ¬ ∀ (L : PvLib) (g : Theme) (a b : PvArgs Unit Unit) (q : Plotter Unit Unit) (r : PlotRes),
    (pvplotCall L () g b (some [()])).1 = some (r, q) →
    (pvplotCall L () (pvplotCall L () g a (some [()])).2 b (some [()])).1 = some (r, q) := by
  intro h
  have := congrArg (fun z => z.map fun y => y.2.theme.lighting) (h ⟨fun _ => none, ⟨true, true, "", "", "", ""⟩, ⟨true, true, "", "", "", ""⟩, ⟨true, true, "", "", "", ""⟩, []⟩
    ⟨true, true, "", "", "", ""⟩ {} { lighting := none } _ _ rfl)
  revert this
  decide

/-- **C131** (meshes): the blocks come behind what a given plotter has already, in a new one they are alone; the camera is that of the argument, if
there is one. -/
theorem C131_meshes (L : PvLib) (title : V) (g : Theme) (a : PvArgs X V) (xs : List X) (r : PlotRes) (p : Plotter X V) (g' : Theme)
    (h : pvplotCall L title g a (some xs) = (some (r, p), g')) :
    p.meshes = ((a.plotter.map (·.meshes)).getD []) ++ xs ∧ p.camera = a.camera.or (a.plotter.bind (·.camera)) := by
  simp only [pvplotCall] at h
  cases hT : prepTheme L g a.theme a.edges a.lighting a.edgeColor with
  | none => rw [hT] at h; simp at h
  | some tg =>
    obtain ⟨t, g₁⟩ := tg
    rw [hT] at h
    have endM : ∀ q : Plotter X V, (plotEnd a q).2.meshes = q.meshes ∧ (plotEnd a q).2.camera = q.camera := by
      intro q
      simp only [plotEnd]
      split
      · exact ⟨rfl, rfl⟩
      · split
        · exact ⟨rfl, rfl⟩
        · split <;> exact ⟨rfl, rfl⟩
    cases hp : a.plotter with
    | some q =>
      simp only [hp, Option.some_or] at h
      have e : _ = p := congrArg Prod.snd (Option.some.inj (congrArg Prod.fst h))
      rw [← e, (endM _).1, (endM _).2]
      exact ⟨rfl, rfl⟩
    | none =>
      simp only [hp, Option.none_or] at h
      cases hn : newPlotter L title t a with
      | none => rw [hn] at h; simp at h
      | some q =>
        rw [hn] at h
        have e : _ = p := congrArg Prod.snd (Option.some.inj (congrArg Prod.fst h))
        simp only [newPlotter] at hn
        split at hn
        · rw [← e, (endM _).1, (endM _).2, ← Option.some.inj hn]
          exact ⟨rfl, by cases a.camera <;> rfl⟩
        · cases hn

/-- **C131** (given plotters): they keep their parameters and theme. -/
theorem C131_given (L : PvLib) (title : V) (g : Theme) (a : PvArgs X V) (q : Plotter X V) (xs : List X) (r : PlotRes) (p : Plotter X V) (g' : Theme)
    (hq : a.plotter = some q) (h : pvplotCall L title g a (some xs) = (some (r, p), g')) :
    p.params = q.params ∧ p.theme = q.theme ∧ p.notebook = q.notebook := by
  simp only [pvplotCall] at h
  cases hT : prepTheme L g a.theme a.edges a.lighting a.edgeColor with
  | none => rw [hT] at h; simp at h
  | some tg =>
    obtain ⟨t, g₁⟩ := tg
    rw [hT] at h
    simp only [hq, Option.some_or] at h
    have e : _ = p := congrArg Prod.snd (Option.some.inj (congrArg Prod.fst h))
    rw [← e]
    simp only [plotEnd]
    split
    · exact ⟨rfl, rfl, rfl⟩
    · split
      · exact ⟨rfl, rfl, rfl⟩
      · split <;> exact ⟨rfl, rfl, rfl⟩

omit X in
theorem foldl_put (kw : List (String × V)) (k : String) (hnd : (kw.map Prod.fst).Nodup) : ∀ d : Params V,
    (kw.foldl (fun d p => d.put p.1 p.2) d) k = ((kw.find? fun p => p.1 = k).map Prod.snd).or (d k) := by
  induction kw with
  | nil => intro d; rfl
  | cons x l ih =>
    intro d
    rw [List.map_cons, List.nodup_cons] at hnd
    rw [List.foldl_cons, ih hnd.2]
    by_cases hx : x.1 = k
    · have hno : l.find? (fun p => decide (p.1 = k)) = none := by
        rw [List.find?_eq_none]
        intro y hy
        simp only [decide_eq_true_eq]
        intro e
        exact hnd.1 (by rw [hx, ← e]; exact List.mem_map_of_mem hy)
      simp [hx, hno, Params.put]
    · have : ¬ k = x.1 := fun e => hx e.symm
      simp [hx, Params.put, this]

/-- **C131** (new plotters): they get the keyword arguments, the size of the window if there is one, and a title if there is none among the keyword
arguments; a keyword that PyVista does not have is an error. -/
theorem C131_new (L : PvLib) (title : V) (g : Theme) (a : PvArgs X V) (xs : List X) (hp : a.plotter = none) (ht : a.theme = .absent)
    (hnd : (a.kw.map Prod.fst).Nodup) (hw : "window_size" ∉ a.kw.map Prod.fst) :
    ((∃ k ∈ a.kw.map Prod.fst, k ∉ L.keys) → (pvplotCall L title g a (some xs)).1 = none) ∧
    ((∀ k ∈ a.kw.map Prod.fst, k ∈ L.keys) → ∃ r p, (pvplotCall L title g a (some xs)).1 = some (r, p) ∧ p.notebook = a.notebook ∧
      (∀ k v, (k, v) ∈ a.kw → p.params k = some v) ∧ p.params "window_size" = a.window ∧
      ("title" ∉ a.kw.map Prod.fst → p.params "title" = some title) ∧
      ∀ k, k ∉ a.kw.map Prod.fst → k ≠ "window_size" → k ≠ "title" → p.params k = none) := by
  constructor
  · rintro ⟨k, hk, hk'⟩
    have : ¬ (a.kw.all fun p => decide (p.1 ∈ L.keys)) = true := by
      rw [List.all_eq_true]
      intro hall
      obtain ⟨y, hy, rfl⟩ := List.mem_map.1 hk
      exact hk' (by simpa using hall y hy)
    simp only [pvplotCall, prepTheme, ht, hp, Option.none_or, newPlotter]
    rw [if_neg this]
  · intro hall
    have : (a.kw.all fun p => decide (p.1 ∈ L.keys)) = true := by
      rw [List.all_eq_true]
      intro y hy
      simpa using hall y.1 (List.mem_map_of_mem hy)
    have hfind : ∀ k, k ∉ a.kw.map Prod.fst → a.kw.find? (fun p => decide (p.1 = k)) = none := by
      intro k hk
      rw [List.find?_eq_none]
      intro y hy
      simp only [decide_eq_true_eq]
      intro e
      exact hk (by rw [← e]; exact List.mem_map_of_mem hy)
    have hfind' : ∀ k v, (k, v) ∈ a.kw → a.kw.find? (fun p => decide (p.1 = k)) = some (k, v) := by
      intro k v hkv
      cases hf : a.kw.find? (fun p => decide (p.1 = k)) with
      | none =>
        rw [List.find?_eq_none] at hf
        exact absurd (by simp) (hf _ hkv)
      | some y =>
        have hy := List.mem_of_find?_eq_some hf
        have hk : y.1 = k := by simpa using List.find?_some hf
        rw [List.inj_on_of_nodup_map hnd hy hkv hk]
    -- the parameters
    have hpar : ∀ k, plotterParams title a k = ((a.kw.find? fun p => p.1 = k).map Prod.snd).or
        (if k = "window_size" then a.window else if k = "title" then some title else none) := by
      intro k
      obtain ⟨D, hD⟩ : ∃ D : Params V, D = a.kw.foldl (fun (d : Params V) p => d.put p.1 p.2) (match a.window with
          | some w => Params.put (fun _ => none) "window_size" w
          | none => fun _ => none) := ⟨_, rfl⟩
      have h0 : ∀ k, D k = ((a.kw.find? fun p => p.1 = k).map Prod.snd).or (if k = "window_size" then a.window else none) := by
        intro k
        rw [hD, foldl_put a.kw k hnd]
        congr 1
        cases a.window with
        | none => simp
        | some w => simp [Params.put]
      have hP : plotterParams title a = if (D "title").isNone then D.put "title" title else D := by
        rw [hD]; rfl
      rw [hP]
      split
      · rename_i hno
        rw [h0] at hno
        by_cases hk : k = "title"
        · subst hk
          simp only [Params.put, if_true]
          have : ((a.kw.find? fun p => decide (p.1 = "title")).map Prod.snd) = none := by
            cases hf : (a.kw.find? fun p => decide (p.1 = "title")).map Prod.snd with
            | none => rfl
            | some v => rw [hf] at hno; simp at hno
          rw [this]
          simp
        · simp only [Params.put, hk, if_false]
          rw [h0]
      · rename_i hno
        rw [h0] at hno ⊢
        by_cases hk : k = "title"
        · subst hk
          simp only [show ("title" : String) ≠ "window_size" by decide, if_false, Option.or_none, if_true] at hno ⊢
          cases hf : (a.kw.find? fun p => decide (p.1 = "title")).map Prod.snd with
          | none => rw [hf] at hno; simp at hno
          | some v => rfl
        · simp only [hk, if_false]
    have hrun : ∃ r p, (pvplotCall L title g a (some xs)).1 = some (r, p) ∧ p.notebook = a.notebook ∧ p.params = plotterParams title a := by
      simp only [pvplotCall, prepTheme, ht, hp, Option.none_or, newPlotter]
      rw [if_pos this]
      simp only [plotEnd]
      split
      · exact ⟨_, _, rfl, rfl, rfl⟩
      · split
        · exact ⟨_, _, rfl, rfl, rfl⟩
        · split <;> exact ⟨_, _, rfl, rfl, rfl⟩
    obtain ⟨r, p, h1, h2, h3⟩ := hrun
    refine ⟨r, p, h1, h2, ?_, ?_, ?_, ?_⟩
    · intro k v hkv
      rw [h3, hpar, hfind' k v hkv]
      rfl
    · rw [h3, hpar, hfind _ hw]
      rfl
    · intro hno
      rw [h3, hpar, hfind _ hno]
      rfl
    · intro k hk h4 h5
      rw [h3, hpar, hfind k hk]
      simp [h4, h5]

/-- **C131** (negation) the size of the window is used with every plotter: it is dropped, like all keyword arguments, if the plotter is given. -/
theorem C131_window_false : ¬ ∀ (L : PvLib) (g : Theme) (a : PvArgs Unit Nat) (w : Nat) (p : Plotter Unit Nat) (r : PlotRes), a.window = some w →
    (pvplotCall L 0 g a (some [])).1 = some (r, p) → p.params "window_size" = some w := by
  intro h
  have := h ⟨fun _ => none, ⟨true, true, "", "", "", ""⟩, ⟨true, true, "", "", "", ""⟩, ⟨true, true, "", "", "", ""⟩, []⟩
    ⟨true, true, "", "", "", ""⟩ { plotter := some ⟨fun _ => none, false, ⟨true, true, "", "", "", ""⟩, none, [], []⟩, window := some 7 } 7 _ _ rfl rfl
  simp at this

/-- **C131** (results): the plotter if asked for, without being shown; an image if asked for outside of notebooks; otherwise the plot is shown once, in
notebooks with the backend of the argument. -/
theorem C131_result (L : PvLib) (title : V) (g : Theme) (a : PvArgs X V) (xs : List X) (r : PlotRes) (p : Plotter X V) (g' : Theme)
    (h : pvplotCall L title g a (some xs) = (some (r, p), g')) :
    (r = .plotter ↔ a.returnPlotter = true) ∧ (r = .image ↔ a.returnPlotter = false ∧ a.notebook = false ∧ a.returnImg = true) ∧
    ∃ c₀, c₀ = (a.plotter.map (·.calls)).getD [] ∧
      (r = .plotter → p.calls = c₀) ∧ (r = .image → p.calls = c₀ ++ [.stay, .screenshot]) ∧
      (r = .shown → p.calls = c₀ ++ [.plain (if a.notebook then some a.backend else none)]) := by
  simp only [pvplotCall] at h
  cases hT : prepTheme L g a.theme a.edges a.lighting a.edgeColor with
  | none => rw [hT] at h; simp at h
  | some tg =>
    obtain ⟨t, g₁⟩ := tg
    rw [hT] at h
    have fin : ∀ q : Plotter X V, plotEnd a q = (r, p) → q.calls = (a.plotter.map (·.calls)).getD [] →
        (r = .plotter ↔ a.returnPlotter = true) ∧ (r = .image ↔ a.returnPlotter = false ∧ a.notebook = false ∧ a.returnImg = true) ∧
        ∃ c₀, c₀ = (a.plotter.map (·.calls)).getD [] ∧
          (r = .plotter → p.calls = c₀) ∧ (r = .image → p.calls = c₀ ++ [.stay, .screenshot]) ∧
          (r = .shown → p.calls = c₀ ++ [.plain (if a.notebook then some a.backend else none)]) := by
      intro q e hc
      simp only [plotEnd] at e
      split at e
      · rename_i h1
        obtain ⟨rfl, rfl⟩ := Prod.mk.inj e
        simp [h1, hc]
      · rename_i h1
        have h1' : a.returnPlotter = false := by simpa using h1
        split at e
        · rename_i h2
          obtain ⟨rfl, rfl⟩ := Prod.mk.inj e
          simp [h1', h2, hc]
        · rename_i h2
          have h2' : a.notebook = false := by simpa using h2
          split at e
          · rename_i h3
            obtain ⟨rfl, rfl⟩ := Prod.mk.inj e
            simp [h1', h2', h3, hc]
          · rename_i h3
            have h3' : a.returnImg = false := by simpa using h3
            obtain ⟨rfl, rfl⟩ := Prod.mk.inj e
            simp [h1', h2', h3', hc]
    cases hp : a.plotter with
    | some q =>
      simp only [hp, Option.some_or] at h
      have e := Option.some.inj (congrArg Prod.fst h)
      rw [hp] at fin
      exact fin _ e rfl
    | none =>
      simp only [hp, Option.none_or] at h
      cases hn : newPlotter L title t a with
      | none => rw [hn] at h; simp at h
      | some q =>
        rw [hn] at h
        have e := Option.some.inj (congrArg Prod.fst h)
        rw [hp] at fin
        refine fin _ e ?_
        simp only [newPlotter] at hn
        split at hn
        · rw [← Option.some.inj hn]; rfl
        · cases hn

/-- **C131** (negation) "A NumPy array if `return_img` is `True`": not in notebooks, and not together with `return_plotter`. -/
theorem C131_image_false (L : PvLib) (title : V) (g : Theme) (a : PvArgs X V) (items : Option (List X)) (h : a.notebook = true ∨ a.returnPlotter = true)
    (p : Plotter X V) : (pvplotCall L title g a items).1 ≠ some (.image, p) := by
  intro e
  cases items with
  | none => simp [pvplotCall] at e
  | some xs =>
    obtain ⟨h1, h2, -⟩ := C131_result L title g a xs .image p (pvplotCall L title g a (some xs)).2 (by rw [← e])
    have := h2.1 rfl
    rcases h with h | h
    · rw [h] at this; simp at this
    · rw [h] at this; simp at this

end

/-! ## the choice of the backend -/

/-- **C131** (backends): PyVista under its name in any case of letters, and K3D in notebooks. -/
theorem C131_backend (notebook : Bool) (backend : String) :
    (backend.toLower = "pyvista" → polyPlot notebook backend = some (.pv notebook)) ∧
    (backend.toLower = "k3d" → polyPlot true backend = some .k3d) ∧
    polyPlot notebook "PyVista" = some (.pv notebook) ∧ polyPlot true "K3D" = some .k3d := by
  refine ⟨fun h => ?_, fun h => ?_, by cases notebook <;> decide +kernel, by decide +kernel⟩
  · simp [polyPlot, h]
  · simp [polyPlot, h]

/-- **C131** (negation) "Valid options are 'k3d' and 'pyvista'": outside of notebooks K3D plots nothing, and other names are not refused either; in both cases
`None` is returned. -/
theorem C131_backend_false : polyPlot false "k3d" = none ∧
    ∀ notebook (backend : String), backend.toLower ≠ "k3d" → backend.toLower ≠ "pyvista" → polyPlot notebook backend = none :=
  ⟨by decide +kernel, fun notebook backend h1 h2 => by simp [polyPlot, h1, h2]⟩

/-- **C131** (scenes): a given scene is used, otherwise a new one with the menu as asked for. -/
theorem C131_scene {S : Type} (new : Bool → S) (menu : Bool) : k3dScene new none menu = new menu ∧ ∀ s, k3dScene new (some s) menu = s :=
  ⟨rfl, fun _ => rfl⟩

section
variable {X V : Type}

/-- **C131** (lines): plotly gets the values; without plotly, and for other names, there is an error. -/
theorem C131_lines (none_ : V) (n : Nat) (scalars labels : Option V) (a : PvArgs X V) :
    (∃ l, linePlot none_ true n scalars labels "plotly" a = .plotly scalars l a.kw) ∧
    linePlot none_ false n scalars labels "plotly" a = .importError ∧
    ∀ b hasPlotly, b ≠ "vtk" → b ≠ "plotly" → linePlot none_ hasPlotly n scalars labels b a = .notImplemented := by
  refine ⟨⟨none, rfl⟩, rfl, fun b hasPlotly h1 h2 => by simp [linePlot, h1, h2]⟩

/-- **C131** (negation) "Labels for the datasets provided with 'scalars'": plotly never gets them. -/
theorem C131_labels_false (none_ : V) (n : Nat) (scalars : Option V) (v : V) (a : PvArgs X V) :
    linePlot none_ true n scalars (some v) "plotly" a = .plotly scalars none a.kw ∧
    linePlot none_ true n scalars (some v) "plotly" a = linePlot none_ true n scalars none "plotly" a := ⟨rfl, rfl⟩

/-- **C131** (negation) "Possible options are `plotly` and `vtk`": with `vtk` the labels go to the plotter as a keyword argument, also if none are given, and
PyVista has no such keyword. Without a plotter every call fails. -/
theorem C131_vtk_false (L : PvLib) (title none_ : V) (g : Theme) (hasPlotly : Bool) (n : Nat) (scalars labels : Option V) (a : PvArgs X V)
    (items : Option (List X)) (hk : "scalar_labels" ∉ L.keys) (hp : a.plotter = none) :
    ((linePlot none_ hasPlotly n scalars labels "vtk" a).run L title g items).1 = none := by
  have : linePlot none_ hasPlotly n scalars labels "vtk" a = .pv { a with kw := a.kw ++ [("scalar_labels", labels.getD none_)] } n := rfl
  rw [this]
  cases n with
  | succ n => rfl
  | zero =>
    simp only [LineAns.run, pvplotCall]
    cases items with
    | none => rfl
    | some xs =>
      simp only
      cases prepTheme L g a.theme a.edges a.lighting a.edgeColor with
      | none => rfl
      | some tg =>
        obtain ⟨t, g₁⟩ := tg
        have : newPlotter L title t { a with kw := a.kw ++ [("scalar_labels", labels.getD none_)] } = none := by
          simp only [newPlotter]
          rw [if_neg]
          simp [hk]
        simp only [hp, Option.none_or] at this ⊢
        rw [this]

/-- **C131** (lines): with a plotter that is given, `vtk` does what `pvplot` does. -/
theorem C131_vtk_given (L : PvLib) (title none_ : V) (g : Theme) (hasPlotly : Bool) (scalars labels : Option V) (a : PvArgs X V)
    (items : Option (List X)) (q : Plotter X V) (hp : a.plotter = some q) :
    (linePlot none_ hasPlotly 0 scalars labels "vtk" a).run L title g items = pvplotCall L title g a items := by
  have : linePlot none_ hasPlotly 0 scalars labels "vtk" a = .pv { a with kw := a.kw ++ [("scalar_labels", labels.getD none_)] } 0 := rfl
  rw [this]
  simp only [LineAns.run, pvplotCall, hp, Option.some_or]
  rfl

end

/-! ## configurations -/

/-- **C131** (configurations that meshes begin with): edges are shown; lines are black, ten wide, and tubes. Nothing else is set. -/
theorem C131_init (k : String) :
    (initConfig false k = if k = "show_edges" then some (.bool true) else none) ∧
    initConfig true k = if k = "show_edges" then some (.bool true) else if k = "color" then some (.text "k")
      else if k = "line_width" then some (.num 10) else if k = "render_lines_as_tubes" then some (.bool true) else none := by
  refine ⟨rfl, ?_⟩
  simp only [initConfig, Params.put, if_true]
  by_cases h1 : k = "render_lines_as_tubes"
  · subst h1; decide
  by_cases h2 : k = "line_width"
  · subst h2; decide
  by_cases h3 : k = "color"
  · subst h3; decide
  simp [h1, h2, h3]

/-- **C131** (configurations): for the key that is used without an argument `config_key`, every block has a configuration from the beginning, and keeps it
through settings and plots; so the parameters of a block are the options of the call and its own settings. -/
theorem C131_own {V : Type} (ofBool : Bool → V) (o : PlotOpts V) (cf : Configs V) (p : List Nat) (d : Params V) (h : cf p = some d) (k : String) :
    plotParams ofBool o cf p k =
      if k = "show_scalar_bar" ∧ o.bar.isSome then o.bar.map ofBool
      else if k = "show_edges" then some (ofBool o.edges)
      else if k = "cmap" ∧ o.cmap.isSome then o.cmap else d k := by
  have hc : configPath cf p = some p := by cases p <;> simp [configPath, h]
  have hb : baseParams cf p = d := by simp [baseParams, hc, h]
  obtain ⟨c, e, b⟩ := o
  simp only [plotParams, hb]
  cases b <;> cases c <;> simp only [Params.put, Option.isSome_none, Option.isSome_some, Bool.false_eq_true, and_false, and_true, if_false,
    Option.map_some, Option.map_none]

/-- **C131** All blocks have a configuration: after the constructors, after settings, and after plots. -/
theorem C131_kept {V : Type} (ofBool : Bool → V) (o : PlotOpts V) :
    (∀ lines p, (initConfigs lines p).isSome) ∧
    (∀ (cf : Configs V) q name v, (∀ p, (cf p).isSome) → ∀ p, (setConfig cf q name v p).isSome) ∧
    (∀ (l : List (List Nat × Bool)) (cf : Configs V), (∀ p, (cf p).isSome) → ∀ p, ((plotLoop ofBool o cf l).2 p).isSome) := by
  refine ⟨fun _ _ => rfl, fun cf q name v h p => ?_, ?_⟩
  · simp only [setConfig]
    split
    · rfl
    · exact h p
  · intro l
    induction l with
    | nil => intro cf h p; exact h p
    | cons x l ih =>
      intro cf h p
      obtain ⟨q, has⟩ := x
      simp only [plotLoop]
      refine ih _ (fun r => ?_) p
      cases has with
      | false => exact h r
      | true =>
        simp only [if_true, popColor]
        cases configPath cf q with
        | none => exact h r
        | some q' =>
          simp only
          split
          · rw [Option.isSome_map]; exact h q'
          · exact h r

/-- **C131** A setting changes the named entry of the block it is made for, and nothing else. -/
theorem C131_set {V : Type} (cf : Configs V) (q : List Nat) (name : String) (v : V) :
    (∀ d, cf q = some d → ∃ d', setConfig cf q name v q = some d' ∧ d' name = some v ∧ ∀ k, k ≠ name → d' k = d k) ∧
    (∀ p, p ≠ q → setConfig cf q name v p = cf p) := by
  refine ⟨fun d h => ⟨d.put name v, by simp [setConfig, h], by simp [Params.put], fun k hk => by simp [Params.put, hk]⟩, fun p hp => by simp [setConfig, hp]⟩

/-- **C131** (negation) blocks take over the configuration of the mesh they belong to: not for the key that is used without an argument `config_key`. A colour
set for the whole mesh is not used for any block in it. -/
theorem C131_inherit_false (lines : List Nat → Bool) (ofBool : Bool → PvVal) (o : PlotOpts PvVal) (v : PvVal) (k : Nat) (p : List Nat)
    (hl : lines (k :: p) = false) : plotParams ofBool o (setConfig (initConfigs lines) [] "color" v) (k :: p) "color" = none := by
  rw [C131_own ofBool o _ (k :: p) (initConfig false) (by simp [setConfig, initConfigs, hl]) "color"]
  simp [initConfig, Params.put]

/-- A case: a plotter of the caller with one mesh in it, asked for an image. -/
example : (pvplotCall (X := String) (V := Nat) ⟨fun _ => none, ⟨true, true, "k", "", "", ""⟩, ⟨true, true, "k", "", "", ""⟩, ⟨true, true, "k", "", "", ""⟩, ["off_screen"]⟩ 0
    ⟨true, true, "k", "", "", ""⟩ { kw := [("off_screen", 1)], returnImg := true, theme := .name "dark" } (some ["a", "b"])).1.map (fun r => (r.1, r.2.meshes, r.2.params "off_screen", r.2.params "title", r.2.theme.lighting)) =
    some (.image, ["a", "b"], some 1, some 0, false) := by decide +kernel

end PM
