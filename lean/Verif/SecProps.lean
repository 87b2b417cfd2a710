import Verif.Section

/-!
# Properties of cross sections

`LineSection.A`, `Ix`, `Iy`, `Iz`, `geometric_properties`, `section_properties`, `calculate_*`, `get_section_properties`
(section.py 327-392). What the wrapped `Section` of the library `sectionproperties` computes are parameters (`SecVals`); until
`calculate_geometric_properties` was called its values are `None`, and until then `calculate_warping_properties` raises.
-/

namespace PM

section
variable {K : Type} [Field K]

/-- What the library computes: `section_props.area`, `ixx_c`, `iyy_c`. -/
structure SecVals (K : Type) where
  area : K
  ixx : K
  iyy : K

/-- The state of a `LineSection`: what the wrapped object has computed, and `props` (section.py 255, read by `section_properties`, 368-373). -/
structure SecState (K : Type) where
  geo : Bool
  warp : Bool
  props : Option (List (String × K))
  deriving DecidableEq

/-- A new object, section.py 255. -/
def SecState.new : SecState K := ⟨false, false, none⟩

/-- `A`, section.py 333-338. `none`: `None`. -/
def secA (v : SecVals K) (s : SecState K) : Option K := if s.geo then some v.area else none

/-- `Iy`, section.py 347-352. -/
def secIy (v : SecVals K) (s : SecState K) : Option K := if s.geo then some v.ixx else none

/-- `Iz`, section.py 354-359. -/
def secIz (v : SecVals K) (s : SecState K) : Option K := if s.geo then some v.iyy else none

/-- `Ix`, section.py 340-345. `none`: the sum of `None`s is an exception. -/
def secIx (v : SecVals K) (s : SecState K) : Option K := (secIy v s).bind fun a => (secIz v s).map fun b => a + b

/-- `geometric_properties`, section.py 361-366. -/
def geometricProps (v : SecVals K) (s : SecState K) : Option (List (String × K)) :=
  (secA v s).bind fun A => (secIx v s).bind fun x => (secIy v s).bind fun y => (secIz v s).map fun z =>
    [("A", A), ("Ix", x), ("Iy", y), ("Iz", z)]

/-- `calculate_geometric_properties`, section.py 327-328. -/
def calcGeo (s : SecState K) : SecState K := { s with geo := true }

/-- `calculate_warping_properties`, section.py 330-331. `none`: an exception. -/
def calcWarp (s : SecState K) : Option (SecState K) := if s.geo then some { s with warp := true } else none

/-- `calculate_section_properties`, section.py 375-383: the new state and the result. -/
def calcProps (v : SecVals K) (s : SecState K) : Option (SecState K × List (String × K)) :=
  (geometricProps v (calcGeo s)).bind fun d => (calcWarp (calcGeo s)).map fun s' => ({ s' with props := some d }, d)

/-- `get_section_properties`, section.py 385-392. -/
def getProps (v : SecVals K) (s : SecState K) : Option (SecState K × List (String × K)) :=
  match s.props with
  | some d => some (s, d)
  | none => calcProps v s

/-- Calls that can change the state. -/
inductive SecOp
  | geo
  | warp
  | props
  | get

/-- The state after a call; a call that raises leaves it as it was. -/
def SecOp.run (v : SecVals K) (s : SecState K) : SecOp → SecState K
  | .geo => calcGeo s
  | .warp => (calcWarp s).getD s
  | .props => ((calcProps v s).map Prod.fst).getD s
  | .get => ((getProps v s).map Prod.fst).getD s

/-- The state after some calls on a new object. -/
def secRun (v : SecVals K) (ops : List SecOp) : SecState K := ops.foldl (SecOp.run v) SecState.new

end

end PM
