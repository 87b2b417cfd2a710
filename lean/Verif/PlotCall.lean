import Verif.Pv

/-!
# Model: the calls of plots

`PolyData.plot` (polydata.py 2226-2261), `k3dplot` (2025-2052), the parts of `pvplot` (2056-2224) around the loop over the blocks, which is modelled in
`Pv`: themes, plotters, what is returned; `LineData.plot` and `__plot_plotly__` (linedata.py 45-95); the configurations that new meshes begin with
(`_init_config_`, polydata.py 810-812, linedata.py 38-43).

PyVista is a parameter: its named themes and the keyword arguments of a plotter. Of a theme the attributes that `pvplot` sets are modelled, the
others are one value. Names are compared in lower case of ASCII.
-/

namespace PM

/-- A theme of PyVista. -/
structure Theme where
  edges : Bool
  lighting : Bool
  edgeColor : String
  color : String
  background : String
  rest : String
deriving DecidableEq

/-- What `pvplot` takes from PyVista: the themes by name (`none`: an exception), the classes of themes, the keyword arguments of `pv.Plotter`. -/
structure PvLib where
  allowed : String → Option Theme
  default : Theme
  dark : Theme
  document : Theme
  keys : List String

/-- The argument `theme`. -/
inductive ThemeArg where
  | absent
  | name (s : String)
  | obj (t : Theme)
deriving DecidableEq

/-- The theme of a name, polydata.py 2150-2166; `none`: the name stays a string, which has no such attributes. -/
def themeNamed (L : PvLib) (s : String) : Option Theme :=
  match L.allowed s with
  | some t => some t
  | none =>
    if s = "dark" then some { L.dark with lighting := false }
    else if s = "bw" then some { L.default with color := "black", lighting := true, edgeColor := "white", background := "white" }
    else if s = "document" then some L.document
    else none

/-- The settings, polydata.py 2171-2176. -/
def themeSet (edges : Bool) (lighting : Option Bool) (edgeColor : Option String) (t : Theme) : Theme :=
  { t with edges := edges, lighting := lighting.getD t.lighting, edgeColor := edgeColor.getD t.edgeColor }

/-- Lines 2150-2176: the theme of the plot and the global theme of PyVista afterwards. Without an argument they are one object (2168-2169). -/
def prepTheme (L : PvLib) (g : Theme) (arg : ThemeArg) (edges : Bool) (lighting : Option Bool) (edgeColor : Option String) : Option (Theme × Theme) :=
  match arg with
  | .absent => some (themeSet edges lighting edgeColor g, themeSet edges lighting edgeColor g)
  | .name s => (themeNamed L s).map fun t => (themeSet edges lighting edgeColor t, g)
  | .obj t => some (themeSet edges lighting edgeColor t, g)

/-- The calls of `Plotter.show`. -/
inductive ShowCall where
  | stay
  | screenshot
  | plain (backend : Option String)
deriving DecidableEq

/-- A plotter: its parameters, theme, camera, the meshes added, the calls of `show`. -/
structure Plotter (X V : Type) where
  params : Params V
  notebook : Bool
  theme : Theme
  camera : Option V
  meshes : List X
  calls : List ShowCall

/-- The arguments of `pvplot` around the loop. -/
structure PvArgs (X V : Type) where
  theme : ThemeArg := .absent
  edges : Bool := true
  lighting : Option Bool := some false
  edgeColor : Option String := none
  window : Option V := none
  kw : List (String × V) := []
  notebook : Bool := false
  backend : String := "pythreejs"
  plotter : Option (Plotter X V) := none
  camera : Option V := none
  returnPlotter : Bool := false
  returnImg : Bool := false

section
variable {X V : Type}

/-- `pvparams`, polydata.py 2179-2187. -/
def plotterParams (title : V) (a : PvArgs X V) : Params V :=
  let d : Params V := fun _ => none
  let d := match a.window with
    | some w => d.put "window_size" w
    | none => d
  let d := a.kw.foldl (fun d p => d.put p.1 p.2) d
  if (d "title").isNone then d.put "title" title else d

/-- A new plotter, polydata.py 2178-2187; other keyword arguments are a `TypeError`. -/
def newPlotter (L : PvLib) (title : V) (t : Theme) (a : PvArgs X V) : Option (Plotter X V) :=
  if a.kw.all fun p => p.1 ∈ L.keys then some ⟨plotterParams title a, a.notebook, t, none, [], []⟩ else none

/-- What a plot returns: the plotter, an image, or what `Plotter.show` returns. -/
inductive PlotRes where
  | plotter
  | image
  | shown
deriving DecidableEq

/-- Lines 2212-2224. -/
def plotEnd (a : PvArgs X V) (p : Plotter X V) : PlotRes × Plotter X V :=
  if a.returnPlotter then (.plotter, p)
  else if a.notebook then (.shown, { p with calls := p.calls ++ [.plain (some a.backend)] })
  else if a.returnImg then (.image, { p with calls := p.calls ++ [.stay, .screenshot] })
  else (.shown, { p with calls := p.calls ++ [.plain none] })

/-- `pvplot`, polydata.py 2147-2224: `items` are the blocks with their parameters (`pvPlot`, `none`: an exception of `to_pv`), `g` is the global
theme. The result, the plotter, and the global theme afterwards, also if the call fails. -/
def pvplotCall (L : PvLib) (title : V) (g : Theme) (a : PvArgs X V) (items : Option (List X)) : Option (PlotRes × Plotter X V) × Theme :=
  match items with
  | none => (none, g)
  | some xs =>
    match prepTheme L g a.theme a.edges a.lighting a.edgeColor with
    | none => (none, g)
    | some (t, g') =>
      match a.plotter.or (newPlotter L title t a) with
      | none => (none, g')
      | some p => (some (plotEnd a { p with camera := a.camera.or p.camera, meshes := p.meshes ++ xs }), g')

end

/-! ## `plot` -/

/-- The function that does a plot. -/
inductive PlotCall where
  | pv (notebook : Bool)
  | k3d
  | plotly
deriving DecidableEq

/-- `PolyData.plot`, polydata.py 2257-2261; `none`: nothing is done and `None` is returned. -/
def polyPlot (notebook : Bool) (backend : String) : Option PlotCall :=
  if notebook ∧ backend.toLower = "k3d" then some .k3d
  else if backend.toLower = "pyvista" then some (.pv notebook)
  else none

/-- The scene of `k3dplot`, polydata.py 2050-2052: that of the caller, or a new one with the menu as asked for. -/
def k3dScene {S : Type} (new : Bool → S) (scene : Option S) (menu : Bool) : S := scene.getD (new menu)

/-- The outcome of `LineData.plot`. -/
inductive LineAns (X V : Type) where
  | pv (a : PvArgs X V) (positional : Nat)
  | plotly (scalars labels : Option V) (kw : List (String × V))
  | importError
  | notImplemented

/-- `LineData.plot`, linedata.py 56-95, with `n` positional arguments; `labels` is the value of `scalar_labels`, given or `None`. -/
def linePlot {X V : Type} (none_ : V) (hasPlotly : Bool) (n : Nat) (scalars labels : Option V) (backend : String) (a : PvArgs X V) : LineAns X V :=
  if backend = "vtk" then .pv { a with kw := a.kw ++ [("scalar_labels", labels.getD none_)] } n
  else if backend = "plotly" then
    if hasPlotly then .plotly scalars none a.kw else .importError
  else .notImplemented

/-- `pvplot(*args, ...)`: all parameters are keywords, so that positional arguments are a `TypeError`. -/
def LineAns.run {X V : Type} (L : PvLib) (title : V) (g : Theme) (items : Option (List X)) : LineAns X V → Option (PlotRes × Plotter X V) × Theme
  | .pv a 0 => pvplotCall L title g a items
  | _ => (none, g)

/-! ## configurations -/

/-- The values of the configurations that meshes begin with. -/
inductive PvVal where
  | bool (b : Bool)
  | text (s : String)
  | num (n : Nat)
deriving DecidableEq

/-- `_init_config_`, polydata.py 810-812, and of lines, linedata.py 38-43, for the key that is used without an argument `config_key`. -/
def initConfig (lines : Bool) : Params PvVal :=
  let d : Params PvVal := fun _ => none
  let d := d.put "show_edges" (.bool true)
  if lines then ((d.put "color" (.text "k")).put "line_width" (.num 10)).put "render_lines_as_tubes" (.bool true) else d

/-- The configurations of a mesh after the constructors (polydata.py 196), for the key of `pvplot` without an argument; `lines` tells the blocks of lines. -/
def initConfigs (lines : List Nat → Bool) : Configs PvVal := fun p => some (initConfig (lines p))

/-- `block.config[key][name] = v`. -/
def setConfig {V : Type} (cf : Configs V) (p : List Nat) (name : String) (v : V) : Configs V :=
  fun q => if q = p then some (((cf p).getD fun _ => none).put name v) else cf q

end PM
