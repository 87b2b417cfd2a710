import Verif.Frames

/-!
# Local frames of cells when a mesh is turned

`PolyCell._rotate_` and `PolyData._rotate_attached_cells_`. The rotation the arguments describe is a parameter: a map of
vectors of the ambient space.
-/

namespace PM

noncomputable section

open V3

/-- Components of a vector along the axes of a frame, `Vector.show(frame)` of neumann. -/
def compIn (S : Frame) (v : V3 ℝ) : V3 ℝ := ⟨dot v S.i, dot v S.j, dot v S.k⟩

/-- `PolyCell._rotate_`, cell.py 648-657: the stored arrays are taken as axes in the ambient space, turned, and their
components in the frame of the source are stored. -/
def rotateCellFrames (S : Frame) (R : V3 ℝ → V3 ℝ) (Fs : List Frame) : List Frame :=
  Fs.map fun F => ⟨compIn S (R F.i), compIn S (R F.j), compIn S (R F.k)⟩

/-- A block with cells: its path, the frame of its source, and local frames, if there are any (`has_frames`,
celldata.py 199-201). -/
structure TBlock where
  path : List Nat
  src : Frame
  frames : Option (List Frame)

/-- `PolyData._rotate_attached_cells_`, polydata.py 1730-1732, called by `rotate` and `spin` (1393, 1433) of the block at
`p`. -/
def rotateAttached (R : V3 ℝ → V3 ℝ) (p : List Nat) (m : List TBlock) : List TBlock :=
  m.map fun b => if p <:+ b.path then { b with frames := b.frames.map (rotateCellFrames b.src R) } else b

end

end PM
