import Verif.PropsFrameCentre

/-!
# C115, exactly: what `centralize` does with a frame of other axes
-/

namespace PM

section
variable {K : Type} [Field K]

theorem pcCenter_lowered [CharZero K] {F : CFrame K} {x : List (V3 K)} (hx : x ≠ []) (v : V3 K) :
    pcCenter F none (x.map fun y => y - v) = pcCenter F none x - F.vecAmb v := by
  have h1 := meanPt_meshCenter (l := x.map (pcShow F none)) (by simpa using hx)
  have h2 := h1.sub (F.vecAmb v)
  rw [List.map_map] at h2
  have e : (x.map fun y => y - v).map (pcShow F none) = x.map ((fun y => y - F.vecAmb v) ∘ pcShow F none) := by
    rw [List.map_map]
    refine List.map_congr_left fun y _ => ?_
    simp only [Function.comp, pcShow_none]
    ext <;> simp [CFrame.place, CFrame.vecAmb] <;> ring
  have h3 := meanPt_meshCenter (l := (x.map fun y => y - v).map (pcShow F none)) (by simpa using hx)
  rw [e] at h3
  have := h3.unique h2
  rw [pcCenter_eq, e, this, pcCenter_eq]

/-- **C115** `centralize(T)` with any frame `T`, all blocks of points having the axes of the source: the coordinates of the centre in
`T` are subtracted as if they were components in the frame of the source, so that the centre moves by the vector with these components
along the axes of the source. It comes to the origin of `T` exactly if this is the vector from the origin of `T` to the centre. -/
theorem C115_centralize_exact [CharZero K] {m : List (FBlock K)} (hm : (m.map FBlock.path).Nodup) {p : List Nat} {b : FBlock K}
    (hb : ClosestFPts m p b) {F : CFrame K} (hF : frameOf m b.path = some F) (hO : F.Ortho)
    (hax : ∀ d ∈ m, b.path <:+ d.path → d.pts.isSome → ∃ G, frameOf m d.path = some G ∧ SameAxes G F)
    {T : CFrame K} (hT : T.Ortho) {v : V3 K} (hv : fCenter m p (some T) = some v) :
    ∃ m' a a', fCentralize m p (some T) = some m' ∧ fCenter m p none = some a ∧ fCenter m' p none = some a' ∧
      T.place v = a ∧ a' = a - (F.place v - F.place 0) ∧ (a' = T.place 0 ↔ F.place v - F.place 0 = a - T.place 0) := by
  have hs := fSource_closest hm hb
  have hne : ptsUnder m b.path ≠ [] := by
    intro h
    obtain ⟨q, hq⟩ := Option.isSome_iff_exists.1 hb.has
    have : (b.path, q) ∈ ptsUnder m b.path := by
      unfold ptsUnder
      rw [List.mem_filterMap]
      exact ⟨b, by simp [hb.mem], by simp [hq]⟩
    rw [h] at this
    cases this
  have hax' : ∀ x ∈ ptsUnder m b.path, ∃ G, frameOf m x.1 = some G ∧ SameAxes G F := by
    intro x hx
    unfold ptsUnder at hx
    rw [List.mem_filterMap] at hx
    obtain ⟨d, hd, hdx⟩ := hx
    rw [Option.map_eq_some_iff] at hdx
    obtain ⟨q, hq, rfl⟩ := hdx
    rw [List.mem_filter] at hd
    exact hax d hd.1 (by simpa using hd.2) (by rw [hq]; rfl)
  have h1 := framedPoints_same hF hO hax' hne
  have h2 := framedPoints_same (m := shiftBlocks b.path v m) (s := b.path) (F := F) (by rw [shift_frameOf, hF]) hO (by
    intro x hx
    rw [shift_ptsUnder] at hx
    obtain ⟨y, hy, rfl⟩ := List.mem_map.1 hx
    rw [shift_frameOf]
    exact hax' y hy) (by rw [shift_ptsUnder]; simpa using hne)
  rw [shift_ptsUnder] at h2
  have e : (((ptsUnder m b.path).map fun b => (b.1, ({ b.2 with x := b.2.x.map fun y => y - v } : FPts K))).flatMap fun b => b.2.x) =
      ((ptsUnder m b.path).flatMap fun b => b.2.x).map fun y => y - v := by
    rw [List.flatMap_map, List.map_flatMap]
  rw [e] at h2
  set X := (ptsUnder m b.path).flatMap fun b => b.2.x with hX
  have hdir : F.place v - F.place 0 = F.vecAmb v := by ext <;> simp [CFrame.place, CFrame.vecAmb]
  have key : ∃ P : List (V3 K), P ≠ [] ∧ v = pcCenter F (some T) P ∧ fCenter m p none = some (pcCenter F none P) ∧
      fCenter (shiftBlocks b.path v m) p none = some (pcCenter F none (P.map fun y => y - v)) := by
    unfold fCenter at hv ⊢
    rw [shift_hasPts, shift_topo, shift_source]
    cases hh : fHasPts m p with
    | true =>
      obtain ⟨d, hd, hd1, hd2⟩ := (fHasPts_iff hm p).1 hh
      have hbp : b.path = p := hb.above.eq_of_length_le (by
        have := hb.closest d hd hd2 (hd1 ▸ List.suffix_refl _)
        rw [hd1] at this
        exact this)
      rw [hh, ← hbp] at hv
      rw [← hbp]
      simp only [if_true] at hv ⊢
      rw [h1, Option.map_some, Option.bind_some] at hv
      rw [h1, h2, Option.map_some, Option.bind_some, Option.map_some, Option.bind_some]
      by_cases hXe : X = []
      · simp [hXe] at hv
      · rw [if_neg (by simpa using hXe)] at hv
        rw [if_neg (by simpa using hXe), if_neg (by simpa using hXe)]
        exact ⟨X, hXe, (Option.some.inj hv).symm, rfl, rfl⟩
    | false =>
      rw [hh] at hv
      simp only [hs, Option.bind_some, h1, h2, Bool.false_eq_true, if_false] at hv ⊢
      rw [gather_map]
      cases hg : gather? X (npUnique (framedTopo m p).flatten) with
      | none => simp [hg] at hv
      | some P =>
        rw [hg, Option.map_some, Option.bind_some] at hv
        rw [Option.map_some, Option.map_some, Option.map_some, Option.bind_some, Option.bind_some]
        by_cases hPe : P = []
        · simp [hPe] at hv
        · rw [if_neg (by simpa using hPe)] at hv
          rw [if_neg (by simpa using hPe), if_neg (by simpa using hPe)]
          exact ⟨P, hPe, (Option.some.inj hv).symm, rfl, rfl⟩
  obtain ⟨P, hP, k1, k2, k3⟩ := key
  have hpl : T.place v = pcCenter F none P := by rw [k1]; exact place_pcCenter hT hP
  refine ⟨shiftBlocks b.path v m, _, _, ?_, k2, k3, hpl, ?_, ?_⟩
  · simp [fCentralize, hs, hF, hv, shiftBlocks]
  · rw [hdir, pcCenter_lowered hP]
  · rw [pcCenter_lowered hP, hdir]
    constructor <;> intro h
    · rw [← h]; ext <;> simp
    · rw [h]; ext <;> simp

end

/-- The case is met: the frame of the mesh is turned and moved, the target is the ambient frame; the centre does not come to the origin. -/
example : (turnedMesh.map FBlock.path).Nodup ∧ (fCenter turnedMesh [] (some ambFrame)).isSome ∧
    (fCentralize turnedMesh [] (some ambFrame)).bind (fun m => fCenter m [] none) ≠ some 0 ∧
    ((fCentralize turnedMesh [] (some ambFrame)).bind fun m => fCenter m [] none).isSome := by decide +kernel

end PM
