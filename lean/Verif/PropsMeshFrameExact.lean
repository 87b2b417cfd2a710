import Verif.PropsFrameMesh

/-!
# C83: exactly when the points of meshes with frames are at their places
-/

namespace PM

section
variable {K : Type} [Field K]

theorem flatMap_inj {α β : Type} {f g : α → List β} : ∀ {l : List α}, (∀ a ∈ l, (f a).length = (g a).length) →
    l.flatMap f = l.flatMap g → ∀ a ∈ l, f a = g a := by
  intro l
  induction l with
  | nil => simp
  | cons a l ih =>
    intro h e x hx
    rw [List.flatMap_cons, List.flatMap_cons] at e
    obtain ⟨e1, e2⟩ := List.append_inj e (h a List.mem_cons_self)
    rcases List.mem_cons.1 hx with rfl | hx
    · exact e1
    · exact ih (fun b hb => h b (List.mem_cons_of_mem _ hb)) e2 x hx

/-- **C83** the points of a block are where the blocks beneath it have them exactly if all those blocks with points (at least one) have frames with the same
origin. -/
theorem C83_points_exact {m : List (FBlock K)} (hm : (m.map FBlock.path).Nodup) {p : List Nat} {T : CFrame K} (hT : T.Ortho)
    (hp : frameOf m p = some T) (hex : ∃ b ∈ m, p <:+ b.path ∧ b.pts.isSome) (Fr : FBlock K → CFrame K)
    (hFr : ∀ b ∈ m, b.pts.isSome → IsFrameOf b (Fr b)) :
    ∃ c, framedPoints m p = some c ∧
      (c.show none = (perBlock m p fun b q => q.x.map (Fr b).place) ↔
        ∀ b ∈ m, p <:+ b.path → ∀ q, b.pts = some q → q.x ≠ [] → (Fr b).origo = T.origo) := by
  obtain ⟨c, h1, h2, h3, h4⟩ := C83_points hm hT hp hex Fr hFr
  refine ⟨c, h1, ?_⟩
  rw [h4]
  constructor
  · intro e b hb hbp q hq hne
    have := flatMap_inj (by
      intro b hb
      cases b.pts <;> simp) e b (List.mem_filter.2 ⟨hb, by simpa using hbp⟩)
    simp only [hq] at this
    obtain ⟨x, l, hx⟩ := List.exists_cons_of_ne_nil hne
    rw [hx, List.map_cons, List.map_cons] at this
    have h0 := (List.cons.inj this).1
    have hx := congrArg V3.x h0
    have hy := congrArg V3.y h0
    have hz := congrArg V3.z h0
    simp only [V3.add_x, V3.add_y, V3.add_z, V3.sub_x, V3.sub_y, V3.sub_z] at hx hy hz
    ext
    · linear_combination -hx
    · linear_combination -hy
    · linear_combination -hz
  · intro h
    unfold perBlock
    apply List.flatMap_congr
    intro b hb
    obtain ⟨hb1, hb2⟩ := List.mem_filter.1 hb
    cases hq : b.pts with
    | none => rfl
    | some q =>
      simp only
      apply List.map_congr_left
      intro x hx
      rw [h b hb1 (by simpa using hb2) q hq (List.ne_nil_of_mem hx)]
      ext <;> simp

/-- **C83** a mesh made of coordinates in a frame shows the places of these coordinates exactly if all of them are their own places in the frame. -/
theorem C83_mesh_exact {F : CFrame K} (hF : F.Ortho) (newaxis : Nat) (X : List (V3 K)) :
    ∃ m c, newMesh (some F) newaxis (.spatial X) = some m ∧ framedPoints m [] = some c ∧
      (c.show none = X.map F.place ↔ ∀ x ∈ X, F.place x = x) := by
  obtain ⟨m, c, h1, h2, h3⟩ := C83_mesh_twice hF newaxis X
  refine ⟨m, c, h1, h2, ?_⟩
  rw [h3]
  constructor
  · intro e x hx
    have := List.map_inj_left.1 e x hx
    have e1 := C45_own hF (F.place x)
    have e2 := C45_own hF x
    rw [pcShow_some] at e1 e2
    rw [this, e2] at e1
    exact e1.symm
  · intro h
    apply List.map_congr_left
    intro x hx
    rw [h x hx, h x hx]

end

/-- A turned frame with another origin: the point one ahead is not its own place. -/
example : turnedFrame.Ortho ∧ turnedFrame.place (⟨1, 0, 0⟩ : V3 ℚ) ≠ ⟨1, 0, 0⟩ := ⟨turnedFrame_ortho, by decide +kernel⟩

end PM
