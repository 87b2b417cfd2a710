import Verif.Exchange

/-!
# Model: meshes for PyVista and plots

`polydata.py` 1782-1815 (`_has_plot_scalars_`, `_get_config_`), 1857-1915 (`to_pv`), 2149-2210 (`pvplot`, the part that adds the
blocks to the plotter).

Configurations are those of one key (`config_key`). Themes, windows and the plotter: `PlotCall`. Frames are the ambient one. Data
per cell have one value for each cell.
-/

namespace PM

/-- An object of PyVista: the grid and the values at its points and cells with their name. -/
structure PvItem (P D : Type) where
  grid : VtkGrid P
  name : Option String
  atPoints : Option (List D)
  atCells : Option (List D)

/-- The argument `scalars`: nothing, an array, or the name of a field. -/
inductive PvScalars (D : Type) where
  | nothing
  | array (d : List D)
  | field (f : Nat)

/-- The argument of `_detach_block_data_`. -/
def PvScalars.arg {D : Type} : PvScalars D → DataArg D
  | .nothing => .nothing
  | .array d => .array d
  | .field f => .field f

/-- The name of the values, polydata.py 1910-1913; `nameOf` gives the strings of the fields. -/
def PvScalars.name {D : Type} (nameOf : Nat → String) : PvScalars D → String
  | .field f => nameOf f
  | _ => "scalars"

/-- `pvobj[name] = d`: PyVista compares the number of values with the number of points, then with the number of cells; any other
number is an error. -/
def pvAttach {P D : Type} (g : VtkGrid P) (name : String) (d : List D) : Option (PvItem P D) :=
  if d.length = g.points.length then some ⟨g, some name, some d, none⟩
  else if d.length = g.ncells then some ⟨g, some name, none, some d⟩
  else none

/-- One block of `to_pv`, polydata.py 1886-1915. With `multiblock` no values are attached. -/
def pvBlock {P D : Type} (cls : MBlock P D → CellClass) (nameOf : Nat → String) (multiblock : Bool) (s : PvScalars D)
    (m : List (MBlock P D)) (b : MBlock P D) (c : CData D) : Option (PvItem P D) :=
  (detachBlock s.arg m b c).bind fun r => (vtkGrid r.1 r.2.1 (cls b).nnode (cls b).vtk).bind fun g =>
    if multiblock then some ⟨g, none, none, none⟩
    else match r.2.2 with
      | some d => pvAttach g (s.name nameOf) d
      | none => some ⟨g, none, none, none⟩

/-- `to_pv`, polydata.py 1857-1915. -/
def toPv {P D : Type} (cls : MBlock P D → CellClass) (nameOf : Nat → String) (multiblock : Bool) (s : PvScalars D)
    (m : List (MBlock P D)) (p : List Nat) : Option (List (PvItem P D)) :=
  (cellsUnder m p).mapM fun c => pvBlock cls nameOf multiblock s m c.1 c.2

/-- `block.source(key) is not None`, polydata.py 832-864: the block or one above it has points with the field. -/
def hasSourceOf {P D : Type} (m : List (MBlock P D)) (f : Nat) : List Nat → Bool
  | [] => ((ptsAt m []).bind fun q => q.fields f).isSome
  | k :: p => ((ptsAt m (k :: p)).bind fun q => q.fields f).isSome || hasSourceOf m f p

/-- `_has_plot_scalars_`, polydata.py 1790-1805, for one block. -/
def hasPlotScalars {P D : Type} (m : List (MBlock P D)) (s : PvScalars D) (b : MBlock P D) (c : CData D) : Bool :=
  match s with
  | .array _ => true
  | .field f => hasSourceOf m f b.path || (c.fields f).isSome
  | .nothing => false

/-- The parameters of a configuration, a dictionary. -/
abbrev Params (V : Type) := String → Option V

/-- The configurations of the blocks, by their paths; `none`: the block has none for the key. -/
abbrev Configs (V : Type) := List Nat → Option (Params V)

section
variable {V : Type}

/-- `d[name] = v`. -/
def Params.put (d : Params V) (name : String) (v : V) : Params V := fun k => if k = name then some v else d k

/-- `d.pop(name, None)`. -/
def Params.pop (d : Params V) (name : String) : Params V := fun k => if k = name then none else d k

/-- `_get_config_`, polydata.py 1807-1815: the block whose configuration is used. -/
def configPath (cf : Configs V) : List Nat → Option (List Nat)
  | [] => if (cf []).isSome then some [] else none
  | k :: p => if (cf (k :: p)).isSome then some (k :: p) else configPath cf p

/-- Lines 2202-2203: the entry is removed from the configuration itself. Without a configuration a new dictionary is used. -/
def popColor (cf : Configs V) (p : List Nat) : Configs V :=
  match configPath cf p with
  | some q => fun r => if r = q then (cf q).map fun d => d.pop "color" else cf r
  | none => cf

/-- Options of `pvplot` that go to every block. -/
structure PlotOpts (V : Type) where
  cmap : Option V
  edges : Bool
  bar : Option Bool

/-- Lines 2201, 2204: the configuration of the block, or an empty dictionary. -/
def baseParams (cf : Configs V) (p : List Nat) : Params V :=
  match configPath cf p with
  | some q => (cf q).getD fun _ => none
  | none => fun _ => none

/-- Lines 2200-2209: the parameters of one block. -/
def plotParams (ofBool : Bool → V) (o : PlotOpts V) (cf : Configs V) (p : List Nat) : Params V :=
  let d := baseParams cf p
  let d := match o.cmap with
    | some v => d.put "cmap" v
    | none => d
  let d := d.put "show_edges" (ofBool o.edges)
  match o.bar with
  | some b => d.put "show_scalar_bar" (ofBool b)
  | none => d

/-- The loop over the blocks, lines 2199-2210: the parameters of the blocks and the configurations after it. -/
def plotLoop (ofBool : Bool → V) (o : PlotOpts V) : Configs V → List (List Nat × Bool) → List (Params V) × Configs V
  | cf, [] => ([], cf)
  | cf, (p, has) :: l =>
    let cf' := if has then popColor cf p else cf
    let r := plotLoop ofBool o cf' l
    (plotParams ofBool o cf' p :: r.1, r.2)

/-- `pvplot`, polydata.py 2149, 2191-2210: what is added to the plotter, and the configurations after it. -/
def pvPlot {P D : Type} (cls : MBlock P D → CellClass) (nameOf : Nat → String) (ofBool : Bool → V) (o : PlotOpts V) (s : PvScalars D)
    (m : List (MBlock P D)) (cf : Configs V) (p : List Nat) : Option (List (PvItem P D × Params V) × Configs V) :=
  (toPv cls nameOf false s m p).map fun items =>
    let r := plotLoop ofBool o cf ((cellsUnder m p).map fun c => (c.1.path, hasPlotScalars m s c.1 c.2))
    (items.zip r.1, r.2)

end

end PM
