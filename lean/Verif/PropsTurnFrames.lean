import Verif.TurnFrames
import Verif.PropsFrames
import Mathlib.Tactic.LinearCombination

/-!
# C98: local frames of cells turn with the mesh
-/

namespace PM

noncomputable section

open V3

/-! ## specification -/

/-- The rotation that takes the axes of the ambient space to those of `G`. -/
def turnBy (G : Frame) (v : V3 ℝ) : V3 ℝ := v.x • G.i + (v.y • G.j + v.z • G.k)

/-- A frame turned. -/
def turnFrame (G F : Frame) : Frame := ⟨turnBy G F.i, turnBy G F.j, turnBy G F.k⟩

/-- The axes of the ambient space. -/
def ambientAxes : Frame := ⟨⟨1, 0, 0⟩, ⟨0, 1, 0⟩, ⟨0, 0, 1⟩⟩

/-! ## lemmas -/

theorem turn_smul (G : Frame) (k : ℝ) (v : V3 ℝ) : turnBy G (k • v) = k • turnBy G v := by
  ext <;> simp [turnBy] <;> ring

theorem turn_sub (G : Frame) (a b : V3 ℝ) : turnBy G (a - b) = turnBy G a - turnBy G b := by
  ext <;> simp [turnBy] <;> ring

theorem turn_dot {G : Frame} (hG : IsFrame G) (a b : V3 ℝ) : dot (turnBy G a) (turnBy G b) = dot a b := by
  obtain ⟨h1, h2, h3, h4, h5, h6, -⟩ := hG
  simp only [dot, turnBy, add_x, add_y, add_z, smul_x, smul_y, smul_z] at *
  linear_combination a.x * b.x * h1 + a.y * b.y * h2 + a.z * b.z * h3 + (a.x * b.y + a.y * b.x) * h4 +
    (a.x * b.z + a.z * b.x) * h5 + (a.y * b.z + a.z * b.y) * h6

theorem turn_cross {G : Frame} (hG : IsFrame G) (a b : V3 ℝ) : cross (turnBy G a) (turnBy G b) = turnBy G (cross a b) := by
  obtain ⟨h1, h2, h3, h4, h5, h6, h7⟩ := hG
  have k1 := congrArg V3.x h7
  have k2 := congrArg V3.y h7
  have k3 := congrArg V3.z h7
  simp only [cross] at k1 k2 k3
  simp only [dot] at h1 h2 h4
  have ejk : cross G.j G.k = G.i := by
    ext <;> simp only [cross, ← k1, ← k2, ← k3]
    · linear_combination G.i.x * h2 - G.j.x * h4
    · linear_combination G.i.y * h2 - G.j.y * h4
    · linear_combination G.i.z * h2 - G.j.z * h4
  have eki : cross G.k G.i = G.j := by
    ext <;> simp only [cross, ← k1, ← k2, ← k3]
    · linear_combination G.j.x * h1 - G.i.x * h4
    · linear_combination G.j.y * h1 - G.i.y * h4
    · linear_combination G.j.z * h1 - G.i.z * h4
  have a1 := congrArg V3.x ejk
  have a2 := congrArg V3.y ejk
  have a3 := congrArg V3.z ejk
  have b1 := congrArg V3.x eki
  have b2 := congrArg V3.y eki
  have b3 := congrArg V3.z eki
  simp only [cross] at a1 a2 a3 b1 b2 b3
  ext <;> simp only [cross, turnBy, add_x, add_y, add_z, smul_x, smul_y, smul_z]
  · linear_combination (a.x * b.y - a.y * b.x) * k1 + (a.y * b.z - a.z * b.y) * a1 + (a.z * b.x - a.x * b.z) * b1
  · linear_combination (a.x * b.y - a.y * b.x) * k2 + (a.y * b.z - a.z * b.y) * a2 + (a.z * b.x - a.x * b.z) * b2
  · linear_combination (a.x * b.y - a.y * b.x) * k3 + (a.y * b.z - a.z * b.y) * a3 + (a.z * b.x - a.x * b.z) * b3

theorem turn_eq_zero {G : Frame} (hG : IsFrame G) {v : V3 ℝ} : turnBy G v = 0 ↔ v = 0 := by
  constructor
  · intro h
    have e : ∀ w, dot (turnBy G v) w = 0 := by intro w; rw [h]; simp [dot]
    have h1 := e (turnBy G ⟨1, 0, 0⟩)
    have h2 := e (turnBy G ⟨0, 1, 0⟩)
    have h3 := e (turnBy G ⟨0, 0, 1⟩)
    rw [turn_dot hG] at h1 h2 h3
    ext
    · simpa [dot] using h1
    · simpa [dot] using h2
    · simpa [dot] using h3
  · rintro rfl
    ext <;> simp [turnBy]

theorem turn_normalize {G : Frame} (hG : IsFrame G) (v : V3 ℝ) : normalize (turnBy G v) = (normalize v).map (turnBy G) := by
  unfold normalize
  by_cases h : v = 0
  · rw [if_pos h, if_pos ((turn_eq_zero hG).2 h)]; rfl
  · rw [if_neg h, if_neg (fun h' => h ((turn_eq_zero hG).1 h')), Option.map_some, turn_smul, vnorm, vnorm, turn_dot hG]

theorem turn_surfaceFrame {G : Frame} (hG : IsFrame G) (u v : V3 ℝ) :
    surfaceFrame (turnBy G u) (turnBy G v) = (surfaceFrame u v).map (turnFrame G) := by
  unfold surfaceFrame
  rw [turn_normalize hG, turn_normalize hG]
  cases normalize u with
  | none => rfl
  | some e1 =>
    cases normalize v with
    | none => rfl
    | some e2 =>
      simp only [Option.map_some, Option.bind_some]
      rw [turn_cross hG, turn_normalize hG]
      cases normalize (cross e1 e2) with
      | none => rfl
      | some e3 =>
        simp only [Option.map_some]
        rw [turn_cross hG]
        rfl

theorem surfaceVecs_motion (G : Frame) (c o : V3 ℝ) (coords : List (V3 ℝ)) (row : List Nat) :
    surfaceVecs (coords.map fun p => c + turnBy G (p - o)) row =
      (surfaceVecs coords row).map fun uv => (turnBy G uv.1, turnBy G uv.2) := by
  have hd : ∀ p q : V3 ℝ, c + turnBy G (p - o) - (c + turnBy G (q - o)) = turnBy G (p - q) := by
    intro p q
    rw [turn_sub, turn_sub, turn_sub]
    ext <;> simp
  unfold surfaceVecs
  cases row[0]? with
  | none => rfl
  | some a =>
    cases row[1]? with
    | none => rfl
    | some b =>
      cases row[row.length - 1]? with
      | none => rfl
      | some d =>
        simp only [Option.bind_some, List.getElem?_map]
        cases coords[a]? with
        | none => rfl
        | some pa =>
          cases coords[b]? with
          | none => rfl
          | some pb =>
            cases coords[d]? with
            | none => rfl
            | some pc => simp [hd]

theorem mapM_map_option {α β γ : Type} (l : List α) (f : α → Option β) (g : β → γ) :
    (l.mapM fun a => (f a).map g) = (l.mapM f).map (List.map g) := by
  induction l with
  | nil => rfl
  | cons a l ih =>
    rw [List.mapM_cons, List.mapM_cons, ih]
    cases f a with
    | none => rfl
    | some b => cases l.mapM f <;> rfl

/-! ## the property -/

/-- Frames computed for the cells of a surface that was turned about a point and moved are the frames computed before,
turned. (Turning about the origin: `c = o = 0`; spinning: `c = o`, the centre; moving: `G` ambient.) -/
theorem C98_surfaces {G : Frame} (hG : IsFrame G) (c o : V3 ℝ) (coords : List (V3 ℝ)) (topo : Topo) :
    framesOfSurfaces (coords.map fun p => c + turnBy G (p - o)) topo =
      (framesOfSurfaces coords topo).map (List.map (turnFrame G)) := by
  unfold framesOfSurfaces
  rw [← mapM_map_option]
  congr 1
  funext row
  rw [surfaceVecs_motion]
  cases surfaceVecs coords row with
  | none => rfl
  | some uv => exact turn_surfaceFrame hG uv.1 uv.2

/-- The same for lines, if their reference points turn with them. -/
theorem C98_lines {G : Frame} (hG : IsFrame G) (c o a b r : V3 ℝ) :
    lineFrameRef (c + turnBy G (a - o)) (c + turnBy G (b - o)) (c + turnBy G (r - o)) =
      (lineFrameRef a b r).map (turnFrame G) := by
  have hd : ∀ p q : V3 ℝ, c + turnBy G (p - o) - (c + turnBy G (q - o)) = turnBy G (p - q) := by
    intro p q
    rw [turn_sub, turn_sub, turn_sub]
    ext <;> simp
  unfold lineFrameRef
  rw [hd, hd, turn_normalize hG]
  cases normalize (b - a) with
  | none => rfl
  | some e1 =>
    simp only [Option.map_some, Option.bind_some]
    rw [turn_dot hG, ← turn_smul, ← turn_sub, turn_normalize hG]
    cases normalize (r - a - dot e1 (r - a) • e1) with
    | none => rfl
    | some e3 =>
      simp only [Option.map_some]
      rw [turn_cross hG]
      rfl

theorem compIn_ambient (v : V3 ℝ) : compIn ambientAxes v = v := by
  ext <;> simp [compIn, ambientAxes, dot]

/-- Meshes in the ambient frame: the stored frames of the blocks at and beneath the block that is turned are turned,
those of other blocks stay; frames remain frames, a vector turned with the mesh keeps its local components, and frames
computed for surfaces are those computed for the turned mesh. -/
theorem C98_partial {G : Frame} (hG : IsFrame G) (p : List Nat) (m : List TBlock)
    (hamb : ∀ b ∈ m, p <:+ b.path → b.src = ambientAxes) :
    (rotateAttached (turnBy G) p m).length = m.length ∧
    ∀ (n : Nat) (b b' : TBlock), m[n]? = some b → (rotateAttached (turnBy G) p m)[n]? = some b' →
      b'.path = b.path ∧ (¬ p <:+ b.path → b' = b) ∧ (b.frames = none → b'.frames = none) ∧
      ∀ Fs, b.frames = some Fs → p <:+ b.path → ∃ Fs', b'.frames = some Fs' ∧ Fs'.length = Fs.length ∧
        (∀ (e : Nat) (F F' : Frame), Fs[e]? = some F → Fs'[e]? = some F' →
          (IsFrame F → IsFrame F') ∧ ∀ v, compIn F' (turnBy G v) = compIn F v) ∧
        ∀ (coords : List (V3 ℝ)) (topo : Topo) (c o : V3 ℝ), framesOfSurfaces coords topo = some Fs →
          framesOfSurfaces (coords.map fun q => c + turnBy G (q - o)) topo = some Fs' := by
  refine ⟨by simp [rotateAttached], ?_⟩
  intro n b b' hb hb'
  rw [rotateAttached, List.getElem?_map, hb, Option.map_some] at hb'
  have hb' := (Option.some.inj hb').symm
  by_cases hp : p <:+ b.path
  · rw [if_pos hp] at hb'
    subst hb'
    refine ⟨rfl, fun h => absurd hp h, fun h => by simp [h], ?_⟩
    intro Fs hF _
    have hs := hamb b (List.mem_of_getElem? hb) hp
    have e : rotateCellFrames b.src (turnBy G) Fs = Fs.map (turnFrame G) := by
      rw [hs, rotateCellFrames]
      simp only [compIn_ambient]
      rfl
    refine ⟨Fs.map (turnFrame G), by simp [hF, e], by simp, ?_, ?_⟩
    · intro i F F' h1 h2
      rw [List.getElem?_map, h1] at h2
      cases Option.some.inj h2
      refine ⟨fun h => ?_, fun v => ?_⟩
      · constructor <;> simp only [turnFrame, turn_dot hG, turn_cross hG]
        exacts [h.ii, h.jj, h.kk, h.ij, h.ik, h.jk, by rw [h.right]]
      · simp [compIn, turnFrame, turn_dot hG]
    · intro coords topo c o h
      rw [C98_surfaces hG, h]
      rfl
  · rw [if_neg hp] at hb'
    subst hb'
    exact ⟨rfl, fun _ => rfl, fun h => h, fun _ _ h => absurd h hp⟩

/-! ## a case -/

/-- A quarter turn about the third axis. -/
def quarterTurn : Frame := ⟨⟨0, 1, 0⟩, ⟨-1, 0, 0⟩, ⟨0, 0, 1⟩⟩

theorem quarterTurn_isFrame : IsFrame quarterTurn := by
  constructor <;> simp [quarterTurn, dot, cross]

example : turnBy quarterTurn ⟨1, 2, 3⟩ = ⟨-2, 1, 3⟩ := by
  ext <;> simp [turnBy, quarterTurn]

example : rotateAttached (turnBy quarterTurn) [] [⟨[0], ambientAxes, some [ambientAxes]⟩] =
    [⟨[0], ambientAxes, some [quarterTurn]⟩] := by
  simp [rotateAttached, rotateCellFrames, compIn_ambient, turnBy, quarterTurn]
  simp [ambientAxes, V3.ext_iff]

/-! ## what fails -/

/-- If the frame of the source is not the ambient one, the frames are read in one frame and stored in the other: turning
by nothing leaves the points where they are and turns the local frames backwards. -/
theorem C98_frame_false : ∃ (S F : Frame), IsFrame S ∧ IsFrame F ∧ (∀ v, turnBy ambientAxes v = v) ∧
    rotateCellFrames S (turnBy ambientAxes) [F] ≠ [F] := by
  refine ⟨quarterTurn, ambientAxes, quarterTurn_isFrame, by constructor <;> simp [ambientAxes, dot, cross], fun v => ?_, ?_⟩
  · ext <;> simp [turnBy, ambientAxes]
  · intro h
    have h1 := congrArg (fun l : List Frame => l.map fun F => F.i.y) h
    simp [rotateCellFrames, compIn, turnBy, ambientAxes, quarterTurn, dot] at h1

/-- Lines without a reference: the frame computed for the turned line is not the turned frame, here for a quarter turn
about the line itself. -/
theorem C98_lines_auto_false : ∃ (G F : Frame) (a b : V3 ℝ), IsFrame G ∧ lineFrameAuto a b = some F ∧
    lineFrameAuto (turnBy G a) (turnBy G b) ≠ some (turnFrame G F) := by
  obtain ⟨F, h1, h2, -⟩ := C31_auto_z_false (L := 1) one_pos
  refine ⟨⟨⟨1, 0, 0⟩, ⟨0, 0, 1⟩, ⟨0, -1, 0⟩⟩, F, ⟨0, 0, 0⟩, ⟨1, 0, 0⟩, by constructor <;> simp [dot, cross], h1, ?_⟩
  have e1 : turnBy ⟨⟨1, 0, 0⟩, ⟨0, 0, 1⟩, ⟨0, -1, 0⟩⟩ ⟨0, 0, 0⟩ = ⟨0, 0, 0⟩ := by ext <;> simp [turnBy]
  have e2 : turnBy ⟨⟨1, 0, 0⟩, ⟨0, 0, 1⟩, ⟨0, -1, 0⟩⟩ ⟨1, 0, 0⟩ = ⟨1, 0, 0⟩ := by ext <;> simp [turnBy]
  rw [e1, e2, h1]
  intro h
  have h3 := congrArg (fun F : Option Frame => F.map fun F => F.k.y) h
  simp [turnFrame, turnBy, h2] at h3

end

end PM
