import Verif.PropsAreas
import Verif.PropsSimplices
import Verif.PropsJacobian
import Verif.PropsLocateTri
import Verif.FrameCentre
/-!
C138: a part of a mesh gets its part of the answers. What a method of a block of cells answers is the list of what it answers for the
cells one by one; so selecting, repeating or reordering cells selects, repeats or reorders the answers, and joining blocks joins them.
-/
namespace PM

open V3

/-! ## Specification -/

/-- Answers are made cell by cell: for cells that satisfy `P`, the answer for all of them is `A` if and only if `A` lists the answers for the
cells alone. -/
def CellByCell {ρ β : Type} (P : ρ → Prop) (f : List ρ → Option (List β)) : Prop :=
  ∀ rows, rows ≠ [] → (∀ r ∈ rows, P r) → ∀ A, f rows = some A ↔ List.Forall₂ (fun r b => f [r] = some [b]) rows A

section
variable {ρ β γ : Type} {P : ρ → Prop} {f : List ρ → Option (List β)}

theorem CellByCell.single (h : CellByCell P f) {r : ρ} (hr : P r) {A : List β} (hA : f [r] = some A) : ∃ b, A = [b] := by
  have := (h [r] (by simp) (by simpa using hr) A).1 hA
  cases this with
  | cons _ h2 => cases h2; exact ⟨_, rfl⟩

/-- **C138.** Cells selected, repeated or reordered: the answers are selected, repeated or reordered. -/
theorem C138_part (h : CellByCell P f) {rows sub : List ρ} {A : List β} {inds : List Nat} (hP : ∀ r ∈ rows, P r) (hne : sub ≠ [])
    (hA : f rows = some A) (hs : gather? rows inds = some sub) : f sub = gather? A inds := by
  have hrows : rows ≠ [] := by
    rintro rfl
    cases inds with
    | nil => simp [gather?] at hs; exact hne hs
    | cons i l => simp [gather?] at hs
  have hf := (h rows hrows hP A).1 hA
  have hPs : ∀ r ∈ sub, P r := by
    intro r hr
    obtain ⟨k, hk⟩ := List.mem_iff_getElem?.1 hr
    have hl := mapM_length hs
    have hkl : k < inds.length := by
      have := (List.getElem?_eq_some_iff.1 hk).1
      omega
    obtain ⟨b, h1, h2⟩ := mapM_get hs (List.getElem?_eq_getElem hkl)
    obtain rfl : r = b := by rw [hk] at h2; exact Option.some.inj h2
    exact hP r (List.mem_of_getElem? h1)
  have key : ∃ B, gather? A inds = some B ∧ List.Forall₂ (fun r b => f [r] = some [b]) sub B := by
    clear hne hPs hA
    induction inds generalizing sub with
    | nil =>
      obtain rfl : sub = [] := by simpa [gather?] using hs.symm
      exact ⟨[], rfl, .nil⟩
    | cons i l ih =>
      simp only [gather?, List.mapM_cons, Option.bind_eq_bind, Option.bind_eq_some_iff, Option.pure_def, Option.some.injEq] at hs
      obtain ⟨r, hr, t, ht, rfl⟩ := hs
      obtain ⟨B, hB, hB'⟩ := ih ht
      have hi : i < A.length := by
        rw [← hf.length_eq]; exact (List.getElem?_eq_some_iff.1 hr).1
      have hir := (List.getElem?_eq_some_iff.1 hr)
      refine ⟨A[i] :: B, ?_, .cons ?_ hB'⟩
      · unfold gather? at hB ⊢
        rw [List.mapM_cons, List.getElem?_eq_getElem hi, hB]; rfl
      · have := List.Forall₂.get hf hir.1 hi
        simpa [hir.2] using this
  obtain ⟨B, hB, hB'⟩ := key
  rw [hB]
  exact (h sub hne hPs B).2 hB'

/-- **C138.** Blocks joined: the answers are joined. -/
theorem C138_join (h : CellByCell P f) {r s : List ρ} {A B : List β} (hr : ∀ x ∈ r, P x) (hs : ∀ x ∈ s, P x) (h1 : r ≠ []) (h2 : s ≠ [])
    (hA : f r = some A) (hB : f s = some B) : f (r ++ s) = some (A ++ B) := by
  refine (h (r ++ s) (by simp [h1]) ?_ _).2 ?_
  · intro x hx
    rcases List.mem_append.1 hx with hx | hx
    · exact hr x hx
    · exact hs x hx
  · exact List.rel_append ((h r h1 hr A).1 hA) ((h s h2 hs B).1 hB)

/-- **C138.** One cell without an answer: no answer for the block, and conversely. -/
theorem C138_none (h : CellByCell P f) {rows : List ρ} (hP : ∀ r ∈ rows, P r) (hne : rows ≠ []) :
    f rows = none ↔ ∃ r ∈ rows, f [r] = none := by
  constructor
  · intro h0
    by_contra hc
    push Not at hc
    have : ∃ A, List.Forall₂ (fun r b => f [r] = some [b]) rows A := by
      clear hne h0
      induction rows with
      | nil => exact ⟨[], .nil⟩
      | cons r l ih =>
        obtain ⟨A, hA⟩ := ih (fun x hx => hP x (by simp [hx])) (fun x hx => hc x (by simp [hx]))
        obtain ⟨B, hB⟩ := Option.ne_none_iff_exists'.1 (hc r (by simp))
        obtain ⟨b, rfl⟩ := h.single (hP r (by simp)) hB
        exact ⟨b :: A, .cons hB hA⟩
    obtain ⟨A, hA⟩ := this
    rw [(h rows hne hP A).2 hA] at h0
    cases h0
  · rintro ⟨r, hr, h0⟩
    by_contra hc
    obtain ⟨A, hA⟩ := Option.ne_none_iff_exists'.1 hc
    have hf := (h rows hne hP A).1 hA
    obtain ⟨i, hi⟩ := List.mem_iff_getElem?.1 hr
    have hi' := List.getElem?_eq_some_iff.1 hi
    have := List.Forall₂.get hf hi'.1 (by rw [← hf.length_eq]; exact hi'.1)
    simp only [List.get_eq_getElem, hi'.2, h0] at this
    cases this

/-! ## How functions are found to be of this kind -/

theorem mapM_some_iff {g : ρ → Option β} {l : List ρ} {A : List β} : l.mapM g = some A ↔ List.Forall₂ (fun r b => g r = some b) l A := by
  induction l generalizing A with
  | nil => simp [eq_comm]
  | cons r l ih =>
    rw [List.mapM_cons]
    simp only [Option.bind_eq_bind, Option.bind_eq_some_iff, Option.pure_def, Option.some.injEq]
    constructor
    · rintro ⟨b, h1, t, h2, rfl⟩
      exact .cons h1 (ih.1 h2)
    · intro h
      cases h with
      | cons h1 h2 => exact ⟨_, h1, _, ih.2 h2, rfl⟩

theorem mapM_one {g : ρ → Option β} {r : ρ} {b : β} : [r].mapM g = some [b] ↔ g r = some b := by
  rw [mapM_some_iff]; simp

theorem CellByCell.of_mapM {g : ρ → Option β} (h : ∀ rows, f rows = rows.mapM g) : CellByCell (fun _ => True) f := by
  intro rows _ _ A
  rw [h, mapM_some_iff]
  constructor <;> intro h' <;> refine h'.imp fun r b hb => ?_
  · rw [h]; exact mapM_one.2 hb
  · rw [h] at hb; exact mapM_one.1 hb

theorem CellByCell.of_spec {g : ρ → β} (h : ∀ rows, rows ≠ [] → (∀ r ∈ rows, P r) → ∃ A, f rows = some A ∧ A.length = rows.length ∧
    ∀ (i : Nat) (r : ρ), rows[i]? = some r → A[i]? = some (g r)) : CellByCell P f := by
  have key : ∀ rows, rows ≠ [] → (∀ r ∈ rows, P r) → f rows = some (rows.map g) := by
    intro rows hne hP
    obtain ⟨A, h1, h2, h3⟩ := h rows hne hP
    rw [h1]
    congr 1
    apply List.ext_getElem?
    intro i
    rw [List.getElem?_map]
    rcases hi : rows[i]? with _ | r
    · rw [List.getElem?_eq_none_iff] at hi
      simp [h2, hi]
    · rw [h3 i r hi]; rfl
  intro rows hne hP A
  have hs : ∀ r ∈ rows, f [r] = some [g r] := fun r hr => key [r] (by simp) (by simpa using hP r hr)
  rw [key rows hne hP]
  clear hne
  have : List.Forall₂ (fun r b => f [r] = some [b]) rows A ↔ List.Forall₂ (fun r b => g r = b) rows A := by
    clear key
    induction rows generalizing A with
    | nil => simp
    | cons r l ih =>
      cases A with
      | nil => simp
      | cons b A =>
        rw [List.forall₂_cons, List.forall₂_cons, ih (fun x hx => hP x (by simp [hx])) A (fun x hx => hs x (by simp [hx])), hs r (by simp)]
        simp
  rw [this]
  have e : List.Forall₂ (fun r b => g r = b) rows A ↔ rows.map g = A := by
    rw [← List.forall₂_map_left_iff (R := fun (x b : β) => x = b) (f := g), List.forall₂_eq_eq_eq]
  rw [e]
  simp

theorem CellByCell.bind (h : CellByCell P f) (g : β → Option γ) : CellByCell P fun rows => (f rows).bind fun A => A.mapM g := by
  have hone : ∀ r, P r → ∀ c, ((f [r]).bind fun A => A.mapM g) = some [c] ↔ ∃ b, f [r] = some [b] ∧ g b = some c := by
    intro r hr c
    rw [Option.bind_eq_some_iff]
    constructor
    · rintro ⟨A, h1, h2⟩
      obtain ⟨b, rfl⟩ := h.single hr h1
      exact ⟨b, h1, mapM_one.1 h2⟩
    · rintro ⟨b, h1, h2⟩
      exact ⟨[b], h1, mapM_one.2 h2⟩
  intro rows hne hP C
  show ((f rows).bind fun A => A.mapM g) = some C ↔ _
  rw [Option.bind_eq_some_iff]
  constructor
  · rintro ⟨A, h1, h2⟩
    have hf := (h rows hne hP A).1 h1
    have hg := mapM_some_iff.1 h2
    clear h1 h2 hne
    induction hf generalizing C with
    | nil => cases hg; exact .nil
    | cons h3 _ ih =>
      cases hg with
      | cons h4 h5 =>
        refine .cons ((hone _ (hP _ (by simp)) _).2 ⟨_, h3, h4⟩) (ih (fun x hx => hP x (by simp [hx])) _ h5)
  · intro hC
    have : ∃ A, List.Forall₂ (fun r b => f [r] = some [b]) rows A ∧ List.Forall₂ (fun b c => g b = some c) A C := by
      clear hne
      induction hC with
      | nil => exact ⟨[], .nil, .nil⟩
      | cons h3 _ ih =>
        obtain ⟨A, h4, h5⟩ := ih (fun x hx => hP x (by simp [hx]))
        obtain ⟨b, h6, h7⟩ := (hone _ (hP _ (by simp)) _).1 h3
        exact ⟨b :: A, .cons h6 h4, .cons h7 h5⟩
    obtain ⟨A, h1, h2⟩ := this
    exact ⟨A, (h rows hne hP A).2 h1, mapM_some_iff.2 h2⟩

theorem CellByCell.times {f : List ρ → Option (List ℝ)} (h : CellByCell P f) : CellByCell (fun q : ρ × ℝ => P q.1) fun rows =>
    (f (rows.map Prod.fst)).bind fun a => mulArr a (rows.map Prod.snd) := by
  have hone : ∀ q : ρ × ℝ, P q.1 → ∀ c, ((f ([q].map Prod.fst)).bind fun a => mulArr a ([q].map Prod.snd)) = some [c] ↔
      ∃ b, f [q.1] = some [b] ∧ b * q.2 = c := by
    intro q hq c
    rw [Option.bind_eq_some_iff]
    constructor
    · rintro ⟨A, h1, h2⟩
      obtain ⟨b, rfl⟩ := h.single hq h1
      exact ⟨b, h1, by simpa [mulArr] using h2⟩
    · rintro ⟨b, h1, h2⟩
      exact ⟨[b], h1, by simpa [mulArr] using h2⟩
  intro rows hne hP C
  show ((f (rows.map Prod.fst)).bind fun a => mulArr a (rows.map Prod.snd)) = some C ↔ _
  have hP' : ∀ r ∈ rows.map Prod.fst, P r := by
    intro r hr
    obtain ⟨q, hq, rfl⟩ := List.mem_map.1 hr
    exact hP q hq
  have hone' : List.Forall₂ (fun r b => ((f ([r].map Prod.fst)).bind fun a => mulArr a ([r].map Prod.snd)) = some [b]) rows C ↔
      List.Forall₂ (fun (q : ρ × ℝ) c => ∃ b, f [q.1] = some [b] ∧ b * q.2 = c) rows C := by
    clear hne hP'
    induction rows generalizing C with
    | nil => simp
    | cons q l ih =>
      cases C with
      | nil => simp
      | cons c C => rw [List.forall₂_cons, List.forall₂_cons, ih (fun x hx => hP x (by simp [hx])), hone q (hP q (by simp))]
  rw [hone', Option.bind_eq_some_iff]
  constructor
  · rintro ⟨A, h1, h2⟩
    have hf := (h _ (by simpa using hne) hP' A).1 h1
    have hl : A.length = rows.length := by have := hf.length_eq; simpa using this.symm
    obtain rfl : C = (A.zip (rows.map Prod.snd)).map fun q => q.1 * q.2 := by
      unfold mulArr at h2
      rw [if_pos (by simpa using hl)] at h2
      exact (Option.some.inj h2).symm
    clear h1 h2 hne hP hP' hone' hl
    induction rows generalizing A with
    | nil => simp
    | cons q l ih =>
      cases hf with
      | cons h3 h4 => exact .cons ⟨_, h3, rfl⟩ (ih _ h4)
  · intro hC
    have : ∃ A, List.Forall₂ (fun r b => f [r] = some [b]) (rows.map Prod.fst) A ∧ mulArr A (rows.map Prod.snd) = some C := by
      clear hne hP hP' hone'
      induction hC with
      | nil => exact ⟨[], .nil, by simp [mulArr]⟩
      | cons h3 _ ih =>
        obtain ⟨A, h4, h5⟩ := ih
        obtain ⟨b, h6, h7⟩ := h3
        refine ⟨b :: A, .cons h6 h4, ?_⟩
        unfold mulArr at h5 ⊢
        split at h5
        · next hl =>
          rw [if_pos (by simpa using hl)]
          simp only [List.map_cons, List.zip_cons_cons, h7]
          rw [Option.some.inj h5]
        · cases h5
    obtain ⟨A, h1, h2⟩ := this
    exact ⟨A, (h _ (by simpa using hne) hP' A).2 h1, h2⟩

end

/-! ## The methods of cells -/

section
variable {K : Type} [Field K]

/-- **C138.** Centres. -/
theorem C138_centres (x : List (V3 K)) : CellByCell (fun _ => True) (centresBulk x) := .of_mapM fun _ => rfl

end

/-- **C138.** Lengths of lines. -/
theorem C138_lengths (coords : List (V3 ℝ)) : CellByCell (fun _ => True) (lengthsOfLines coords) := .of_mapM fun _ => rfl

/-- **C138.** Frames of surfaces. -/
theorem C138_frames (coords : List (V3 ℝ)) : CellByCell (fun _ => True) (framesOfSurfaces coords) := .of_mapM fun _ => rfl

/-- **C138.** Frames of lines, with automatic directions or with one of reference. -/
theorem C138_line_frames (coords : List (V3 ℝ)) (z : V3 ℝ) : CellByCell (fun _ => True) (fun t => framesOfLines coords t .auto) ∧
    CellByCell (fun _ => True) (fun t => framesOfLines coords t (.one z)) := ⟨.of_mapM fun _ => rfl, .of_mapM fun _ => rfl⟩

/-- A row of a block with nodes that exist. -/
def NodesExist {α : Type} (coords : List α) (row : List Nat) : Prop := ∀ n ∈ row, n < coords.length

theorem rows_points {α : Type} {coords : List α} {topo : Topo} (zero : α) (h : ∀ r ∈ topo, NodesExist coords r) :
    topo.mapM (fun row => row.mapM fun n => coords[n]?) = some (topo.map fun row => row.map fun n => coords.getD n zero) := by
  apply mapM_some
  intro row hr
  apply mapM_some
  intro n hn
  rw [List.getD_eq_getElem?_getD, List.getElem?_eq_getElem (h row hr n hn)]
  rfl

/-- **C138.** Local coordinates, of rows with their frames. -/
theorem C138_local (coords : List (V3 ℝ)) : CellByCell (fun q : List Nat × Frame => NodesExist coords q.1)
    fun rows => localCoordinates coords (rows.map Prod.fst) (rows.map Prod.snd) none := by
  apply CellByCell.of_spec (g := fun q => (q.1.map fun n => coords.getD n 0).map fun p => trPoint q.2 (p - centroid (q.1.map fun n => coords.getD n 0)))
  intro rows _ hP
  obtain ⟨ec, h1, h2, h3⟩ := localCoordinates_spec (Fs := rows.map Prod.snd)
    (rows_points (coords := coords) (topo := rows.map Prod.fst) 0 (by
      intro r hr
      obtain ⟨q, hq, rfl⟩ := List.mem_map.1 hr
      exact hP q hq)) (by simp)
  refine ⟨ec, h1, by simpa using h2, fun i q hq => h3 i _ _ ?_ ?_⟩
  · simp [hq]
  · simp [hq]

/-- **C138.** Jacobian matrices and their determinants, for all points of evaluation. -/
theorem C138_jacobian (nD : Nat) (dshp : List (List (List ℝ))) (coords : List (V3 ℝ)) :
    CellByCell (fun q : List Nat × Frame => NodesExist coords q.1)
      (fun rows => jacobianMatrix nD dshp coords (rows.map Prod.fst) (rows.map Prod.snd)) ∧
    CellByCell (fun q : List Nat × Frame => NodesExist coords q.1)
      (fun rows => jacobianDet nD dshp coords (rows.map Prod.fst) (rows.map Prod.snd)) := by
  have h1 : CellByCell (fun q : List Nat × Frame => NodesExist coords q.1)
      (fun rows => jacobianMatrix nD dshp coords (rows.map Prod.fst) (rows.map Prod.snd)) := by
    have := (C138_local coords).bind fun X => dshp.mapM fun d => jacobianAt nD d (X.map (V3.comps nD))
    simpa only [jacobianMatrix, jacobianMatrixBulk, mapM_map'] using this
  exact ⟨h1, h1.bind fun e => e.mapM detL⟩

/-- **C138.** Areas of triangles. -/
theorem C138_triangles (coords : List (V3 ℝ)) : CellByCell (fun q : List Nat × Frame => NodesExist coords q.1)
    fun rows => areasT3 coords (rows.map Prod.fst) (rows.map Prod.snd) := by
  have h := (C138_local coords).bind fun X => (triOfRow X).map fun t => triArea2 t / 2
  have e : ∀ ec : List (List (V3 ℝ)), (ec.mapM triOfRow).map areaTriBulk = ec.mapM fun X => (triOfRow X).map fun t => triArea2 t / 2 := by
    intro ec
    induction ec with
    | nil => rfl
    | cons X l ih =>
      rw [List.mapM_cons, List.mapM_cons, ← ih]
      cases triOfRow X <;> cases List.mapM triOfRow l <;> rfl
  simpa only [areasT3, e] using h

/-- Rows and maps that fit: the rows of the map name places of the row. -/
def MapFits (map : List (List Nat)) (row : List Nat) : Prop := ∀ t ∈ map, ∀ q ∈ t, q < row.length

/-- **C138.** Areas of surfaces cut into triangles. -/
theorem C138_areas (coords : List (V3 ℝ)) (trimap : List (List Nat)) (h3 : ∀ t ∈ trimap, t.length = 3) :
    CellByCell (fun q : List Nat × Frame => NodesExist coords q.1 ∧ IsFrame q.2 ∧ MapFits trimap q.1)
      fun rows => areas2d coords (rows.map Prod.fst) (rows.map Prod.snd) trimap := by
  apply CellByCell.of_spec (g := fun q => ((cutTris trimap (q.1.map fun n => coords.getD n 0)).map (seenArea q.2.k)).sum)
  intro rows hne hP
  have m1 : ∀ {C : List Nat → Prop}, (∀ q ∈ rows, C q.1) → ∀ r ∈ rows.map Prod.fst, C r := by
    intro C h r hr
    obtain ⟨q, hq, rfl⟩ := List.mem_map.1 hr
    exact h q hq
  obtain ⟨A, e1, e2, e3⟩ := C71_areas (coords := coords) (topo := rows.map Prod.fst) (Fs := rows.map Prod.snd) (trimap := trimap)
    (rows_points 0 (m1 fun q hq => (hP q hq).1)) (by simpa using hne) (by simp)
    (by
      intro F hF
      obtain ⟨q, hq, rfl⟩ := List.mem_map.1 hF
      exact (hP q hq).2.1) h3 (m1 (C := MapFits trimap) fun q hq => (hP q hq).2.2)
  refine ⟨A, e1, by simpa using e2, fun i q hq => e3 i _ _ ?_ ?_⟩
  · simp [hq]
  · simp [hq]

/-- **C138.** Volumes of surfaces with the thickness of every cell, and of lines with the area of every cell. -/
theorem C138_volumes (coords : List (V3 ℝ)) (trimap : List (List Nat)) (h3 : ∀ t ∈ trimap, t.length = 3) :
    CellByCell (fun q : (List Nat × Frame) × ℝ => NodesExist coords q.1.1 ∧ IsFrame q.1.2 ∧ MapFits trimap q.1.1)
      (fun rows => volumes2d coords (rows.map fun q => q.1.1) (rows.map fun q => q.1.2) trimap (some (rows.map Prod.snd))) ∧
    CellByCell (fun _ => True) (fun rows : List (List Nat × ℝ) => volumes1d coords (rows.map Prod.fst) (some (rows.map Prod.snd))) := by
  constructor
  · simpa only [volumes2d, fieldOrOnes, List.map_map, Function.comp_def] using (C138_areas coords trimap h3).times
  · simpa only [volumes1d, fieldOrOnes] using (C138_lengths coords).times

/-- **C138.** Volumes of solids cut into tetrahedra. -/
theorem C138_solids {K : Type} [Field K] [LinearOrder K] [CharZero K] (k : CellKind) (map : List (List Nat)) (hk : tetmapOf k = some map)
    (coords : List (V3 K)) : CellByCell (fun r => NodesExist coords r ∧ r.length = k.nnode) (volumes3d k coords) := by
  apply CellByCell.of_spec (g := fun r => ((cutTets map (r.map fun n => coords.getD n 0)).map tetVolume).sum)
  intro rows hne hP
  obtain ⟨V, e1, e2, e3⟩ := C89_volumes k map hk coords rows hne (fun r hr => (hP r hr).2) _ (rows_points 0 fun r hr => (hP r hr).1)
  exact ⟨V, e1, e2, fun i r hr => e3 i _ (by simp [hr])⟩

/-! ## Points in cells -/

section
variable {K : Type} [Field K] [LinearOrder K]

theorem transformed_append {t s : Topo} (map : List (List Nat)) : transformed (t ++ s) map 0 = transformed t map 0 ++ transformed s map 0 := by
  simp [transformed]

theorem mapM_append_some {α β : Type} {f : α → Option β} {a b : List α} {A B : List β} (h1 : a.mapM f = some A) (h2 : b.mapM f = some B) :
    (a ++ b).mapM f = some (A ++ B) := by
  rw [mapM_some_iff] at *
  exact List.rel_append h1 h2

theorem MapFits.pathOK {t : Topo} {map : List (List Nat)} {n : Nat} (hm : ∀ p ∈ map, p.length = n) (h : ∀ r ∈ t, MapFits map r) :
    PathOK t map n := ⟨hm, fun c hc p hp q hq => h c hc p hp q hq⟩

/-- **C138.** A point is in a mesh of two parts if and only if it is in one of the parts (surfaces in their plane). -/
theorem C138_inside_2d (coords : List (P2 K)) (t s trimap : Topo) (h3 : ∀ p ∈ trimap, p.length = 3) (ht : ∀ r ∈ t, MapFits trimap r)
    (hs : ∀ r ∈ s, MapFits trimap r) (tol : K) (x : List (P2 K)) {A B : List Bool} (hA : pipCells2d coords t trimap tol x = some A)
    (hB : pipCells2d coords s trimap tol x = some B) :
    ∃ C, pipCells2d coords (t ++ s) trimap tol x = some C ∧ C.length = x.length ∧
      ∀ (i : Nat) (a b : Bool), A[i]? = some a → B[i]? = some b → C[i]? = some (a || b) := by
  unfold pipCells2d at *
  rw [transformTopology_eq (MapFits.pathOK h3 ht)] at hA
  rw [transformTopology_eq (MapFits.pathOK h3 hs)] at hB
  rw [transformTopology_eq (MapFits.pathOK h3 (t := t ++ s) (by
    intro r hr
    rcases List.mem_append.1 hr with hr | hr
    · exact ht r hr
    · exact hs r hr)), transformed_append]
  simp only [Option.bind_some, Option.map_eq_some_iff] at *
  obtain ⟨T, hT, rfl⟩ := hA
  obtain ⟨S, hS, rfl⟩ := hB
  refine ⟨_, ⟨T ++ S, mapM_append_some hT hS, rfl⟩, by simp [pipTriBulk], fun i a b ha hb => ?_⟩
  simp only [pipTriBulk, List.map_map, List.getElem?_map, Option.map_eq_some_iff, Function.comp] at ha hb ⊢
  obtain ⟨p, hp, rfl⟩ := ha
  obtain ⟨q, hq, rfl⟩ := hb
  obtain rfl : p = q := by rw [hp] at hq; exact Option.some.inj hq
  exact ⟨p, hp, by simp [List.any_append]⟩

omit [LinearOrder K] in
theorem natTable_all (tets : List (Tet K)) (n : Nat) (h : tets.length = n) (x : List (V3 K)) :
    natTable tets (x.map fun _ => List.range n) x = some (x.map fun p => tets.map (globToNatTet p)) := by
  subst h
  unfold natTable
  have e : x.zip (x.map fun _ => List.range tets.length) = x.map fun p => (p, List.range tets.length) := by
    induction x with
    | nil => rfl
    | cons a l ih => rw [List.map_cons, List.zip_cons_cons, ih, List.map_cons]
  rw [e, mapM_map']
  apply mapM_some
  intro p _
  have : (List.range tets.length).mapM (fun k => (tets[k]?).map (globToNatTet p)) =
      some ((List.range tets.length).map fun k => globToNatTet p (tets.getD k ⟨0, 0, 0, 0⟩)) := by
    apply mapM_some
    intro k hk
    rw [List.getD_eq_getElem?_getD, List.getElem?_eq_getElem (List.mem_range.1 hk)]
    rfl
  refine this.trans ?_
  congr 1
  apply List.ext_getElem
  · simp
  · intro i h1 h2
    simp only [List.length_map, List.length_range] at h1
    simp [List.getD_eq_getElem?_getD, List.getElem?_eq_getElem h1]

theorem pipCells3dAll_eq (coords : List (V3 K)) (t tetmap : Topo) (h4 : ∀ p ∈ tetmap, p.length = 4) (ht : ∀ r ∈ t, MapFits tetmap r) (tol : K)
    (x : List (V3 K)) : pipCells3dAll coords t tetmap tol x = ((transformed t tetmap 0).mapM (tetOf coords)).map fun tets =>
      x.map fun p => tets.any fun T => pipTet tol (globToNatTet p T) := by
  unfold pipCells3dAll pipCells3d
  rw [transformTopology_eq (MapFits.pathOK h4 ht)]
  simp only [Option.bind_some]
  rcases h : (transformed t tetmap 0).mapM (tetOf coords) with _ | tets
  · rfl
  · have hl : tets.length = t.length * tetmap.length := by
      rw [mapM_length h]
      unfold transformed
      rw [length_flatMap_block (n := tetmap.length) (by simp), Nat.mul_comm]
    simp only [Option.bind_some, natTable_all tets _ hl, Option.map_some, List.map_map]
    congr 1
    apply List.map_congr_left
    intro p _
    simp [Function.comp_def, List.any_map]

/-- **C138.** The same for solids, without `lazy`. -/
theorem C138_inside_3d (coords : List (V3 K)) (t s tetmap : Topo) (h4 : ∀ p ∈ tetmap, p.length = 4) (ht : ∀ r ∈ t, MapFits tetmap r)
    (hs : ∀ r ∈ s, MapFits tetmap r) (tol : K) (x : List (V3 K)) {A B : List Bool} (hA : pipCells3dAll coords t tetmap tol x = some A)
    (hB : pipCells3dAll coords s tetmap tol x = some B) :
    ∃ C, pipCells3dAll coords (t ++ s) tetmap tol x = some C ∧ C.length = x.length ∧
      ∀ (i : Nat) (a b : Bool), A[i]? = some a → B[i]? = some b → C[i]? = some (a || b) := by
  rw [pipCells3dAll_eq coords t tetmap h4 ht, Option.map_eq_some_iff] at hA
  rw [pipCells3dAll_eq coords s tetmap h4 hs, Option.map_eq_some_iff] at hB
  obtain ⟨T, hT, rfl⟩ := hA
  obtain ⟨S, hS, rfl⟩ := hB
  rw [pipCells3dAll_eq coords (t ++ s) tetmap h4 (by
    intro r hr
    rcases List.mem_append.1 hr with hr | hr
    · exact ht r hr
    · exact hs r hr), transformed_append, mapM_append_some hT hS]
  refine ⟨_, rfl, by simp, fun i a b ha hb => ?_⟩
  simp only [List.getElem?_map, Option.map_eq_some_iff] at ha hb ⊢
  obtain ⟨p, hp, rfl⟩ := ha
  obtain ⟨q, hq, rfl⟩ := hb
  obtain rfl : p = q := by rw [hp] at hq; exact Option.some.inj hq
  exact ⟨p, hp, by simp [List.any_append]⟩

end

/-- **C138.** A part must have a cell: without cells, areas and volumes that are sums fail (they divide by the number of cells), lengths do not. -/
theorem C138_empty (coords : List (V3 ℝ)) (trimap : List (List Nat)) :
    areas2d coords [] [] trimap = none ∧ volumes3d .TET4 coords [] = none ∧ lengthsOfLines coords [] = some [] := by
  refine ⟨?_, ?_, rfl⟩
  · unfold areas2d
    rcases localCoordinates coords [] [] none with _ | ec
    · rfl
    simp only [Option.bind_some]
    rcases triangulateCellCoords ec trimap 3 0 with _ | tri
    · rfl
    simp only [Option.bind_some]
    rcases tri.mapM triOfRow with _ | ts
    · rfl
    simp [sumBlocks]
  · unfold volumes3d
    rcases toTetrahedra .TET4 [] with _ | tt
    · rfl
    simp only [Option.bind_some]
    rcases tt.mapM (tetOf coords) with _ | tets
    · rfl
    simp [sumBlocks]

/-! ## Cases -/

/-- Two tetrahedra, taken in the other order and once more. -/
example : volumes3d (K := ℚ) .TET4 [⟨0, 0, 0⟩, ⟨1, 0, 0⟩, ⟨0, 1, 0⟩, ⟨0, 0, 1⟩, ⟨0, 0, -2⟩] [[0, 1, 2, 3], [0, 1, 2, 4]] = some [1 / 6, 1 / 3] ∧
    volumes3d (K := ℚ) .TET4 [⟨0, 0, 0⟩, ⟨1, 0, 0⟩, ⟨0, 1, 0⟩, ⟨0, 0, 1⟩, ⟨0, 0, -2⟩] [[0, 1, 2, 4], [0, 1, 2, 3], [0, 1, 2, 4]] =
      gather? [1 / 6, 1 / 3] [1, 0, 1] := by
  decide +kernel

example : ∀ r ∈ [[0, 1, 2, 3], [0, 1, 2, 4]], NodesExist ([⟨0, 0, 0⟩, ⟨1, 0, 0⟩, ⟨0, 1, 0⟩, ⟨0, 0, 1⟩, ⟨0, 0, -2⟩] : List (V3 ℚ)) r ∧
    r.length = CellKind.TET4.nnode := by
  simp only [NodesExist]; decide +kernel

/-- A point in the first and one in the second of two triangles, and one in neither. -/
example : pipCells2d (K := ℚ) [⟨0, 0⟩, ⟨1, 0⟩, ⟨0, 1⟩, ⟨1, 1⟩] [[0, 1, 2]] trimapT3 0 [⟨1 / 4, 1 / 4⟩, ⟨3 / 4, 3 / 4⟩, ⟨2, 2⟩] = some [true, false, false] ∧
    pipCells2d (K := ℚ) [⟨0, 0⟩, ⟨1, 0⟩, ⟨0, 1⟩, ⟨1, 1⟩] ([[0, 1, 2]] ++ [[1, 3, 2]]) trimapT3 0 [⟨1 / 4, 1 / 4⟩, ⟨3 / 4, 3 / 4⟩, ⟨2, 2⟩] =
      some [true, true, false] := by
  decide +kernel

end PM
