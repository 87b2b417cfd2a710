import Verif.PropsIds
import Verif.PropsTurnFrames

/-!
# Exact accounts: which requests spoil the id allocator (C39), which sources turn frames rightly (C98), which points have a plane (C31)
-/

namespace PM

/-! ## C39 -/

/-- All ids below `next` are used or queued, and no id is negative. -/
def IdFull (st : IdState) : Prop :=
  0 ≤ st.m.next ∧ (∀ i, 0 ≤ i → i < st.m.next → i ∈ st.live ++ st.m.queue) ∧ ∀ i ∈ st.live ++ st.m.queue, 0 ≤ i

theorem gen_full {st : IdState} (h : IdFull st) {n : Nat} (hn : n = 1 ∨ st.m.queue.length ≤ n) : IdFull (IdOp.step st (.gen n)) := by
  obtain ⟨⟨q, nx⟩, live⟩ := st
  obtain ⟨h0, h1, h2⟩ := h
  simp only at h0 h1 h2 hn
  by_cases hq : 0 < q.length
  · by_cases hn1 : n = 1
    · subst hn1
      have hne : q ≠ [] := List.length_pos_iff.1 hq
      obtain ⟨q', x, rfl⟩ : ∃ q' x, q = q' ++ [x] := ⟨q.dropLast, q.getLast hne, (List.dropLast_concat_getLast hne).symm⟩
      have hg : IM.generate ⟨q' ++ [x], nx⟩ 1 = ([x], ⟨q', nx⟩) := by simp [IM.generate]
      have hm : ∀ i, i ∈ (live ++ [x]) ++ q' ↔ i ∈ live ++ (q' ++ [x]) := by
        intro i
        simp only [List.mem_append, List.mem_singleton]
        tauto
      refine ⟨?_, ?_, ?_⟩
      · simpa only [IdOp.step, hg] using h0
      · simp only [IdOp.step, hg]
        exact fun i a b => (hm i).2 (h1 i a b)
      · simp only [IdOp.step, hg]
        exact fun i a => h2 i ((hm i).1 a)
    · have hqn : q.length ≤ n := hn.resolve_left hn1
      have hg : IM.generate ⟨q, nx⟩ n = (q ++ rangeI nx (n - q.length), ⟨[], nx + ((n : Int) - q.length)⟩) := by
        simp only [IM.generate]
        rw [if_pos hq, if_neg hn1]
        by_cases he : q.length ≥ n
        · have : n = q.length := by omega
          subst this
          rw [if_pos he]
          simp [rangeI]
        · rw [if_neg he]
      refine ⟨?_, ?_, ?_⟩
      · simp only [IdOp.step, hg]
        omega
      · simp only [IdOp.step, hg, List.append_nil]
        intro i a b
        by_cases hi : i < nx
        · rcases List.mem_append.1 (h1 i a hi) with h | h
          · exact List.mem_append_left _ h
          · exact List.mem_append_right _ (List.mem_append_left _ h)
        · exact List.mem_append_right _ (List.mem_append_right _ (mem_rangeI.2 ⟨by omega, by omega⟩))
      · simp only [IdOp.step, hg, List.append_nil]
        intro i hi
        rcases List.mem_append.1 hi with h | h
        · exact h2 i (List.mem_append_left _ h)
        · rcases List.mem_append.1 h with h | h
          · exact h2 i (List.mem_append_right _ h)
          · have := (mem_rangeI.1 h).1
            omega
  · have : q = [] := List.eq_nil_of_length_eq_zero (by omega)
    subst this
    have hg : IM.generate ⟨[], nx⟩ n = (rangeI nx n, ⟨[], nx + n⟩) := by simp [IM.generate]
    refine ⟨?_, ?_, ?_⟩
    · simp only [IdOp.step, hg]
      omega
    · simp only [IdOp.step, hg, List.append_nil] at h1 ⊢
      intro i a b
      by_cases hi : i < nx
      · exact List.mem_append_left _ (h1 i a hi)
      · exact List.mem_append_right _ (mem_rangeI.2 ⟨by omega, by omega⟩)
    · simp only [IdOp.step, hg, List.append_nil] at h2 ⊢
      intro i hi
      rcases List.mem_append.1 hi with h | h
      · exact h2 i h
      · have := (mem_rangeI.1 h).1
        omega

theorem back_full {st : IdState} (h : IdFull st) {ids : List Int} (hl : ∀ i ∈ ids, i ∈ st.live) : IdFull (IdOp.step st (.back ids)) := by
  obtain ⟨⟨q, nx⟩, live⟩ := st
  obtain ⟨h0, h1, h2⟩ := h
  simp only at h0 h1 h2 hl
  refine ⟨h0, ?_, ?_⟩
  · simp only [IdOp.step, IM.recycle]
    intro i a b
    by_cases hi : i ∈ ids
    · exact List.mem_append_right _ (List.mem_append_right _ hi)
    · rcases List.mem_append.1 (h1 i a b) with h | h
      · exact List.mem_append_left _ (List.mem_filter.2 ⟨h, by simpa using hi⟩)
      · exact List.mem_append_right _ (List.mem_append_left _ h)
  · simp only [IdOp.step, IM.recycle]
    intro i hi
    rcases List.mem_append.1 hi with h | h
    · exact h2 i (List.mem_append_left _ (List.mem_filter.1 h).1)
    · rcases List.mem_append.1 h with h | h
      · exact h2 i (List.mem_append_right _ h)
      · exact h2 i (List.mem_append_left _ (hl i h))

theorem run_inv {ops : List IdOp} {st : IdState} (h : IdInv st) (hw : WellUsed st ops) (hs : NoShortRequest st ops) :
    IdInv (runIds st ops) := by
  induction ops generalizing st with
  | nil => exact h
  | cons op ops ih =>
    cases op with
    | gen n => exact ih (gen_inv h hs.1).2 hw hs.2
    | back ids => exact ih (rec_inv h hw.1 hw.2.1) hw.2.2 hs

theorem run_full {ops : List IdOp} {st : IdState} (h : IdFull st) (hw : WellUsed st ops) (hs : NoShortRequest st ops) :
    IdFull (runIds st ops) := by
  induction ops generalizing st with
  | nil => exact h
  | cons op ops ih =>
    cases op with
    | gen n => exact ih (gen_full h hs.1) hw hs.2
    | back ids => exact ih (back_full h hw.2.1) hw.2.2 hs

/-- **C39** exact: after a history without short requests (requests for none or several ids that ask for less than are queued), a request
for `n` ids is followed by fresh ids only, as long as there are no short requests, exactly if it is not short itself. Every short
request leads to an id in use being handed out. -/
theorem C39_exact {ops : List IdOp} (hw : WellUsed {} ops) (hs : NoShortRequest {} ops) (n : Nat) :
    (n = 1 ∨ (runIds {} ops).m.queue.length ≤ n) ↔
      ∀ post, WellUsed (runIds {} (ops ++ [.gen n])) post → NoShortRequest (runIds {} (ops ++ [.gen n])) post →
        ∀ k, (k = 1 ∨ (runIds {} (ops ++ .gen n :: post)).m.queue.length ≤ k) → Fresh (runIds {} (ops ++ .gen n :: post)) k := by
  have hi : IdInv (runIds {} ops) := run_inv ⟨by simp, by simp⟩ hw hs
  have hf : IdFull (runIds {} ops) := run_full ⟨by simp, fun i a b => absurd a (not_le.2 b), by simp⟩ hw hs
  have e1 : runIds {} (ops ++ [.gen n]) = IdOp.step (runIds {} ops) (.gen n) := by simp [runIds]
  have e2 : ∀ post, runIds {} (ops ++ .gen n :: post) = runIds (IdOp.step (runIds {} ops) (.gen n)) post := by simp [runIds]
  simp only [e1, e2]
  generalize runIds {} ops = st at *
  clear hw hs e1 e2
  constructor
  · intro hn post hw hs k hk
    exact (gen_inv (run_inv (gen_inv hi hn).2 hw hs) hk).1
  · intro h
    by_contra hn
    obtain ⟨⟨q, nx⟩, live⟩ := st
    obtain ⟨i1, i2⟩ := hi
    obtain ⟨f0, f1, f2⟩ := hf
    simp only [not_or, not_le] at hn i1 i2 f0 f1 f2
    obtain ⟨hn1, hnq⟩ := hn
    have hq : 0 < q.length := by omega
    have hg : IM.generate ⟨q, nx⟩ n = (q.take n, ⟨q.drop n, nx + ((n : Int) - q.length)⟩) := by
      simp only [IM.generate]
      rw [if_pos hq, if_neg hn1, if_pos (by omega)]
    -- there are at least as many ids as are queued
    have hqn : (q.length : Int) ≤ nx := by
      have hnd : q.Nodup := (List.nodup_append.1 i1).2.1
      have hsub : q ⊆ rangeI 0 nx.toNat := fun i hi => mem_rangeI.2
        ⟨f2 i (List.mem_append_right _ hi), by have := i2 i (List.mem_append_right _ hi); omega⟩
      have := (hnd.subperm hsub).length_le
      rw [length_rangeI] at this
      omega
    -- the rest of the queue is asked for
    have hd : 0 < (q.drop n).length := by rw [List.length_drop]; omega
    have hg2 : (IM.generate ⟨q.drop n, nx + ((n : Int) - q.length)⟩ (q.drop n).length).2 = ⟨[], nx + ((n : Int) - q.length)⟩ ∧
        ∀ i ∈ q.drop n, i ∈ (IM.generate ⟨q.drop n, nx + ((n : Int) - q.length)⟩ (q.drop n).length).1 := by
      generalize q.drop n = r at hd
      simp only [IM.generate]
      rw [if_pos hd]
      by_cases h1 : r.length = 1
      · obtain ⟨x, rfl⟩ := List.length_eq_one_iff.1 h1
        rw [if_pos h1]
        simp
      · rw [if_neg h1, if_pos le_rfl]
        simp
    have hF := h [.gen (q.drop n).length] (by simp [WellUsed]) (by
      simp only [NoShortRequest, IdOp.step, hg]
      exact ⟨Or.inr le_rfl, trivial⟩) 1 (Or.inl rfl)
    obtain ⟨-, -, hF⟩ := hF
    simp only [runIds, List.foldl_cons, List.foldl_nil, IdOp.step, hg] at hF
    have hgen : ∀ m : IM, m = ⟨[], nx + ((n : Int) - q.length)⟩ → (m.generate 1).1 = [nx + ((n : Int) - q.length)] := by
      rintro m rfl
      simp [IM.generate, rangeI]
    refine hF (nx + ((n : Int) - q.length)) ?_ ?_
    · rw [hgen _ hg2.1]
      exact List.mem_singleton.2 rfl
    · have := f1 (nx + ((n : Int) - q.length)) (by omega) (by omega)
      rcases List.mem_append.1 this with h | h
      · exact List.mem_append_left _ (List.mem_append_left _ h)
      · have h : nx + ((n : Int) - q.length) ∈ q.take n ++ q.drop n := by rwa [List.take_append_drop]
        rcases List.mem_append.1 h with h | h
        · exact List.mem_append_left _ (List.mem_append_right _ h)
        · exact List.mem_append_right _ (hg2.2 _ h)

/-- A history with a short request to come: three ids are queued, two are asked for. -/
example : WellUsed {} [.gen 3, .gen 1, .back [0, 1, 2]] ∧ NoShortRequest {} [.gen 3, .gen 1, .back [0, 1, 2]] ∧
    ¬ (2 = 1 ∨ (runIds {} [.gen 3, .gen 1, .back [0, 1, 2]]).m.queue.length ≤ 2) := by
  refine ⟨?_, ?_, by decide⟩
  · simp only [WellUsed]; exact ⟨by decide, by decide, trivial⟩
  · simp only [NoShortRequest]; exact ⟨by decide, by decide, trivial⟩

/-! ## C98 -/

open V3

/-- A vector is given by its components in a frame. -/
theorem frame_ext {F : Frame} (h : IsFrame F) {v w : V3 ℝ} (hi : dot F.i v = dot F.i w) (hj : dot F.j v = dot F.j w)
    (hk : dot F.k v = dot F.k w) : v = w := by
  have hz : cross F.i F.j = F.k := h.right
  have e1 : F.i.y * F.j.z - F.i.z * F.j.y = F.k.x := by simpa [cross] using congrArg V3.x hz
  have e2 : F.i.z * F.j.x - F.i.x * F.j.z = F.k.y := by simpa [cross] using congrArg V3.y hz
  have e3 : F.i.x * F.j.y - F.i.y * F.j.x = F.k.z := by simpa [cross] using congrArg V3.z hz
  have kk := h.kk
  simp only [dot] at hi hj hk kk
  generalize F.i = a at *
  generalize F.j = b at *
  generalize F.k = c at *
  have hdet : a.x * (b.y * c.z - b.z * c.y) - a.y * (b.x * c.z - b.z * c.x) + a.z * (b.x * c.y - b.y * c.x) = 1 := by
    rw [← kk]
    linear_combination c.x * e1 + c.y * e2 + c.z * e3
  ext
  · linear_combination (b.y * c.z - b.z * c.y) * hi + (c.y * a.z - c.z * a.y) * hj + (a.y * b.z - a.z * b.y) * hk - (v.x - w.x) * hdet
  · linear_combination (b.z * c.x - b.x * c.z) * hi + (c.z * a.x - c.x * a.z) * hj + (a.z * b.x - a.x * b.z) * hk - (v.y - w.y) * hdet
  · linear_combination (b.x * c.y - b.y * c.x) * hi + (c.x * a.y - c.y * a.x) * hj + (a.x * b.y - a.y * b.x) * hk - (v.z - w.z) * hdet

/-- **C98** exact: the stored frames of cells are turned with the mesh exactly if the frame of the source has the axes of the ambient
space. -/
theorem C98_exact {G : Frame} (hG : IsFrame G) (S : Frame) {Fs : List Frame} (hF : ∀ F ∈ Fs, IsFrame F) (hne : Fs ≠ []) :
    rotateCellFrames S (turnBy G) Fs = Fs.map (turnFrame G) ↔ S = ambientAxes := by
  constructor
  · intro h
    obtain ⟨F, Fs', rfl⟩ := List.exists_cons_of_ne_nil hne
    have hF := hF F List.mem_cons_self
    simp only [rotateCellFrames, List.map_cons, List.cons.injEq, turnFrame, Frame.mk.injEq] at h
    obtain ⟨⟨hi, hj, hk⟩, -⟩ := h
    have hH : IsFrame (turnFrame G F) := by
      constructor <;> simp only [turnFrame, turn_dot hG, turn_cross hG]
      · exact hF.ii
      · exact hF.jj
      · exact hF.kk
      · exact hF.ij
      · exact hF.ik
      · exact hF.jk
      · rw [hF.right]
    have hSi : S.i = ⟨1, 0, 0⟩ := frame_ext hH (by simpa [compIn, dot, turnFrame] using congrArg V3.x hi)
      (by simpa [compIn, dot, turnFrame] using congrArg V3.x hj) (by simpa [compIn, dot, turnFrame] using congrArg V3.x hk)
    have hSj : S.j = ⟨0, 1, 0⟩ := frame_ext hH (by simpa [compIn, dot, turnFrame] using congrArg V3.y hi)
      (by simpa [compIn, dot, turnFrame] using congrArg V3.y hj) (by simpa [compIn, dot, turnFrame] using congrArg V3.y hk)
    have hSk : S.k = ⟨0, 0, 1⟩ := frame_ext hH (by simpa [compIn, dot, turnFrame] using congrArg V3.z hi)
      (by simpa [compIn, dot, turnFrame] using congrArg V3.z hj) (by simpa [compIn, dot, turnFrame] using congrArg V3.z hk)
    obtain ⟨si, sj, sk⟩ := S
    simp only at hSi hSj hSk
    subst hSi hSj hSk
    rfl
  · rintro rfl
    simp [rotateCellFrames, compIn_ambient, turnFrame]

/-! ## C31 -/

/-- There is a frame of two vectors exactly if they are not parallel. -/
theorem surfaceFrame_isSome {u v : V3 ℝ} : (∃ F, surfaceFrame u v = some F) ↔ cross u v ≠ 0 := by
  constructor
  · rintro ⟨F, h⟩ h0
    unfold surfaceFrame at h
    cases h1 : normalize u with
    | none => rw [h1] at h; cases h
    | some a =>
      cases h2 : normalize v with
      | none => rw [h1, h2] at h; cases h
      | some b =>
        rw [h1, h2, Option.bind_some, Option.bind_some] at h
        have ha : ∃ s : ℝ, a = s • u := by
          unfold normalize at h1
          split at h1
          · cases h1
          · exact ⟨_, (Option.some.inj h1).symm⟩
        have hb : ∃ s : ℝ, b = s • v := by
          unfold normalize at h2
          split at h2
          · cases h2
          · exact ⟨_, (Option.some.inj h2).symm⟩
        obtain ⟨s, rfl⟩ := ha
        obtain ⟨t, rfl⟩ := hb
        have e : cross (s • u) (t • v) = 0 := by
          have : cross (s • u) (t • v) = (s * t) • cross u v := by ext <;> simp [cross] <;> ring
          rw [this, h0]
          ext <;> simp
        rw [e] at h
        have hz : normalize (0 : V3 ℝ) = none := by
          unfold normalize
          simp
        rw [hz] at h
        cases h
  · intro h
    obtain ⟨F, hF, -⟩ := surfaceFrame_spec h
    exact ⟨F, hF⟩

/-- **C31** exact: `frame_of_plane` has a result exactly if the vectors from the centre to the first point and to the point in the
middle of the list are not parallel; then it is a frame. -/
theorem C31_plane_exact {coords : List (V3 ℝ)} {p q : V3 ℝ} (hp : coords[0]? = some p) (hq : coords[coords.length / 2]? = some q) :
    (∃ r, frameOfPlane coords = some r) ↔ cross (p - centroid coords) (q - centroid coords) ≠ 0 := by
  rw [← surfaceFrame_isSome, frameOfPlane, hp, Option.bind_some, hq, Option.bind_some]
  constructor
  · rintro ⟨r, h⟩
    obtain ⟨F, hF, -⟩ := Option.map_eq_some_iff.1 h
    exact ⟨F, hF⟩
  · rintro ⟨F, hF⟩
    exact ⟨_, by rw [hF, Option.map_some]⟩

/-- **C31** exact: `frames_of_surfaces` has a result exactly if in every cell the edges from the first node to the second and to the last
one exist and are not parallel. -/
theorem C31_surfaces_exact {coords : List (V3 ℝ)} {topo : Topo} :
    (∃ Fs, framesOfSurfaces coords topo = some Fs) ↔
      ∀ row ∈ topo, ∃ u v, CellEdges coords row u v ∧ cross u v ≠ 0 := by
  constructor
  · rintro ⟨Fs, h⟩ row hr
    cases hf : ((surfaceVecs coords row).bind fun uv => surfaceFrame uv.1 uv.2) with
    | none =>
      rw [framesOfSurfaces, mapM_none hr hf] at h
      cases h
    | some F =>
      obtain ⟨⟨u, v⟩, hv, hF⟩ := Option.bind_eq_some_iff.1 hf
      refine ⟨u, v, ⟨?_⟩, surfaceFrame_isSome.1 ⟨F, hF⟩⟩
      obtain ⟨a, ha, hv⟩ := Option.bind_eq_some_iff.1 hv
      obtain ⟨b, hb, hv⟩ := Option.bind_eq_some_iff.1 hv
      obtain ⟨c, hc, hv⟩ := Option.bind_eq_some_iff.1 hv
      obtain ⟨pa, hpa, hv⟩ := Option.bind_eq_some_iff.1 hv
      obtain ⟨pb, hpb, hv⟩ := Option.bind_eq_some_iff.1 hv
      obtain ⟨pc, hpc, hv⟩ := Option.map_eq_some_iff.1 hv
      obtain ⟨rfl, rfl⟩ := Prod.mk.inj hv
      exact ⟨a, b, c, pa, pb, pc, by rwa [List.head?_eq_getElem?], hb, by rwa [List.getLast?_eq_getElem?], hpa, hpb, hpc, rfl, rfl⟩
  · intro h
    choose! u v huv using h
    obtain ⟨Fs, hFs, -⟩ := C31_surfaces (ev := fun row => (u row, v row)) huv
    exact ⟨Fs, hFs⟩

end PM
