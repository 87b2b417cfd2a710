import Verif.PropsSkin
import Verif.PropsLocate
import Verif.PropsTransform

/-!
# C09, C54, C59: exactly when surfaces of several blocks, positions and data of cells are right
-/

namespace PM

/-! ## C59: surfaces of several blocks -/

theorem occ_perm (A : Topo) {s t : List Nat} (h : s.Perm t) : occ A s = occ A t := by
  unfold occ
  apply List.countP_congr
  intro x _
  rw [List.isPerm_iff, List.isPerm_iff]
  exact ⟨fun e => h.symm.trans e, fun e => h.trans e⟩

/-- Faces outside of a block are outside of the mesh: skins of the blocks are the skin of the mesh. -/
theorem isSkin_flatten' {facesL polysL : List Topo} (h : List.Forall₂ IsSkin facesL polysL)
    (hd : ∀ A ∈ facesL, ∀ s, occ A s = 1 → occ facesL.flatten s = 1) : IsSkin facesL.flatten polysL.flatten := by
  intro s
  have key : ∀ {F P : List Topo}, List.Forall₂ IsSkin F P →
      ((∀ A ∈ F, occ A s ≠ 1) → occ P.flatten s = 0) ∧ (occ F.flatten s = 1 → occ P.flatten s = 1) ∧
        (occ F.flatten s = 0 → occ P.flatten s = 0) := by
    intro F P h
    induction h with
    | nil => simp [occ]
    | @cons A p F P h1 h2 ih =>
      obtain ⟨i1, i2, i3⟩ := ih
      have e := h1 s
      simp only [List.flatten_cons, occ_append]
      refine ⟨fun hh => ?_, fun hh => ?_, fun hh => ?_⟩
      · rw [i1 fun B hB => hh B (List.mem_cons_of_mem _ hB), e, if_neg (hh A List.mem_cons_self)]
      · rcases (by omega : (occ A s = 1 ∧ occ F.flatten s = 0) ∨ (occ A s = 0 ∧ occ F.flatten s = 1)) with ⟨a, b⟩ | ⟨a, b⟩
        · rw [e, if_pos a, i3 b]
        · rw [e, if_neg (by omega), i2 b]
      · rw [e, if_neg (by omega), i3 (by omega)]
  obtain ⟨k1, k2, -⟩ := key h
  by_cases hs : occ facesL.flatten s = 1
  · rw [if_pos hs, k2 hs]
  · rw [if_neg hs]
    exact k1 fun A hA h1 => hs (hd A hA s h1)

/-- **C59** Several blocks: the surface is that of the mesh exactly if no face on the outside of a block belongs to a cell of another block. -/
theorem C59_blocks_exact {query : List (V3 ℝ) → V3 ℝ → Option Nat} (hq : NearestQuery query) {coords : List (V3 ℝ)}
    (hnd : coords.Nodup) (hne : coords ≠ []) {facesL : List Topo} {blocks : List PvSurf} (hb : blocks ≠ [])
    (hs : List.Forall₂ (VtkSurface coords) facesL blocks) (ht : Thin facesL.flatten) :
    ∃ T, meshSurface query coords blocks = some (coords, T) ∧
      (IsSkinTri facesL.flatten T ↔ ∀ A ∈ facesL, ∀ s, occ A s = 1 → occ facesL.flatten s = 1) := by
  obtain ⟨T, hT, -, hin⟩ := C59_blocks hq hnd hne hb hs
  refine ⟨T, hT, ⟨?_, fun hd => ?_⟩⟩
  · rintro ⟨polys, parts, h4, h5, h6⟩ A hA s hocc
    obtain ⟨p, part, hsp, htr, hmem⟩ := hin A hA s hocc
    obtain ⟨f, hf, hsf⟩ := occ_pos.1 (by rw [hocc]; exact Nat.one_pos)
    have hff : f ∈ facesL.flatten := List.mem_flatten.2 ⟨A, hA, hf⟩
    have hfn := ht.1 f hff
    have hpf : p.Perm f := hsp.symm.trans hsf
    have hpn : p.Nodup := hpf.nodup_iff.2 hfn
    obtain ⟨t, htp⟩ : ∃ t, t ∈ part := by
      cases htr with
      | tri => exact ⟨_, List.mem_cons_self⟩
      | quad => exact ⟨_, List.mem_cons_self⟩
      | quad' => exact ⟨_, List.mem_cons_self⟩
    obtain ⟨p', part', h7, h8, h9, _⟩ := triang_mem h5 (h6.mem_iff.1 (hmem t htp))
    obtain ⟨h10, f', hf', hpf'⟩ := skin_mem h4 h7
    have hpn' : p'.Nodup := hpf'.nodup_iff.2 (ht.1 f' hf')
    obtain ⟨s1, s3, s2⟩ := (isTriang_part htr hpn).2 t htp
    obtain ⟨-, -, s5⟩ := (isTriang_part h8 hpn').2 t h9
    have := ht.2 f hff f' hf' t s1 s3 (fun x hx => hpf.mem_iff.1 (s2 hx)) (fun x hx => hpf'.mem_iff.1 (s5 hx))
    rw [occ_perm _ (hsf.trans (this.trans hpf'.symm))]
    exact h10
  · obtain ⟨Ts, T', h1, h2, h3⟩ := meshSurface_eq hq hnd hne hb hs
    rw [hT] at h1
    obtain rfl : T = T' := by simpa using h1
    obtain ⟨polysL, partsL, h4, h5, h6⟩ := skinTri_flatten h2
    have hskin := isSkin_flatten' h4 hd
    have hnodup := h6.nodup_iff.2 (skin_nodup ht hskin h5)
    refine ⟨_, _, hskin, h5, ?_⟩
    refine List.Perm.trans ?_ h6
    unfold uniqueRows at h3
    split at h3
    · simp at h3
    · split at h3
      · obtain rfl := Option.some.inj h3
        exact (List.perm_ext_iff_of_nodup (nodup_npUnique _) hnodup).2 fun t => mem_npUnique
      · obtain rfl := Option.some.inj h3
        exact .refl _

/-- Two tetrahedra with a common face in two blocks: the face is outside of both blocks but not of the mesh. -/
example : occ skinFaces1 [0, 1, 2] = 1 ∧ occ [skinFaces1, skinFaces2].flatten [0, 1, 2] = 2 := by decide

/-! ## C54: positions -/

section
variable {K : Type} [Field K]

theorem lincomb_unit (u : V3 K) : ∀ (w : List K) (n i : Nat), w.length = n →
    lincomb w ((List.range n).map fun j => if j = i then u else 0) = w.getD i 0 • u := by
  intro w
  induction w with
  | nil => intro n i hn; simp at hn; subst hn; ext <;> simp [lincomb]
  | cons a w ih =>
    intro n i hn
    obtain ⟨m, rfl⟩ : ∃ m, n = m + 1 := ⟨n - 1, by simp at hn; omega⟩
    rw [List.range_succ_eq_map, List.map_cons, List.map_map, lincomb]
    cases i with
    | zero =>
      have : (List.range m).map ((fun j => if j = 0 then u else 0) ∘ Nat.succ) = (List.range m).map fun j => if j = m then u else 0 := by
        apply List.map_congr_left
        intro j hj
        have := List.mem_range.1 hj
        simp; omega
      rw [this, ih m m (by simpa using hn)]
      have hl : w.length = m := by simpa using hn
      ext <;> simp [hl]
    | succ i =>
      have : (List.range m).map ((fun j => if j = i + 1 then u else 0) ∘ Nat.succ) = (List.range m).map fun j => if j = i then u else 0 := by
        apply List.map_congr_left
        intro j _
        simp
      rw [this, ih m i (by simpa using hn)]
      ext <;> simp

/-- **C54** `loc_to_glob` gives the right positions in all cells exactly if there are as many points as nodes and the value of each shape function `a` at
point `b` is the value of shape function `b` at point `a`. -/
theorem C54_exact {nNE : Nat} {shp : List (List K)} (hs : ∀ w ∈ shp, w.length = nNE) :
    (∀ ec : List (List (V3 K)), (∀ e ∈ ec, e.length = nNE) →
      locToGlob nNE shp ec = some (ec.map fun e => shp.map fun w => lincomb w e)) ↔
    shp.length = nNE ∧ ∀ (a b : Nat) (r s : List K), shp[a]? = some r → shp[b]? = some s → r[b]? = s[a]? := by
  constructor
  · intro h
    have hl : shp.length = nNE := by
      by_contra hne
      have h1 := h [List.replicate nNE 0] (by simp)
      rw [C54_actual hs (by simp) (by simp), if_neg hne] at h1
      cases h1
    refine ⟨hl, fun a b r s hr hsb => ?_⟩
    have ha := (List.getElem?_eq_some_iff.1 hr).1
    have hb := (List.getElem?_eq_some_iff.1 hsb).1
    have hrl := hs r (List.mem_of_getElem? hr)
    have hsl := hs s (List.mem_of_getElem? hsb)
    have h1 := h [(List.range nNE).map fun j => if j = b then (⟨1, 0, 0⟩ : V3 K) else 0] (by simp)
    rw [C54_actual hs (by simp) (by simp), if_pos hl] at h1
    have h2 := Option.some.inj h1
    simp only [List.map_cons, List.map_nil, List.cons.injEq, and_true] at h2
    have h3 := congrArg (fun l => (l[a]?).map V3.x) h2
    simp only [List.getElem?_map, List.getElem?_range (by omega : a < nNE), hr, Option.map_some] at h3
    rw [lincomb_unit _ _ _ _ (by simpa using hl), lincomb_unit _ _ _ _ hrl] at h3
    have h4 := Option.some.inj h3
    simp only [V3.smul_x, mul_one] at h4
    rw [List.getD_eq_getElem?_getD, List.getElem?_map, hsb] at h4
    simp only [Option.map_some, Option.getD_some] at h4
    rw [List.getD_eq_getElem?_getD, List.getD_eq_getElem?_getD, List.getElem?_eq_getElem (by omega), List.getElem?_eq_getElem (by omega)] at h4
    rw [List.getElem?_eq_getElem (by omega), List.getElem?_eq_getElem (by omega)]
    simpa using h4.symm
  · rintro ⟨h1, h2⟩ ec he
    exact C54_partial hs he h1 h2

end

/-! ## C09: data of cells -/

/-- **C09** data per cell are repeated for the sub-cells exactly if they have another number of columns than the cells have nodes, or if every sub-cell
consists of all nodes of the cell in their order. -/
theorem C09_cell_data_exact {α : Type} {a b : α} (hab : a ≠ b) {nE nNE width nSubN : Nat} (hE : 0 < nE) {path : List (List Nat)}
    (hr : ∀ p ∈ path, p.length = nSubN) (hin : ∀ p ∈ path, ∀ q ∈ p, q < nNE) (zero : α) :
    (∀ data : List (List α), data.length = nE → (∀ r ∈ data, r.length = width) →
      ∃ d, transformTopologyData nE nNE data width path nSubN zero = some d ∧
        ∀ i k, i < nE → k < path.length → d[i * path.length + k]? = data[i]?) ↔
    width ≠ nNE ∨ ∀ p ∈ path, p = List.range nNE := by
  have key : ∀ data : List (List α), data.length = nE → (∀ r ∈ data, r.length = nNE) →
      transformTopologyData nE nNE data nNE path nSubN zero = some (transformed data path zero) := by
    intro data hd hw
    unfold transformTopologyData
    rw [if_pos ⟨hd, rfl⟩]
    exact transformResult_eq ⟨hr, fun c hc p hp q hq => by rw [hw c hc]; exact hin p hp q hq⟩ zero fun _ => mem_repeatWrites
  constructor
  · intro h
    by_cases hw : width = nNE
    · subst hw
      right
      intro p hp
      obtain ⟨k, hk, rfl⟩ := List.getElem_of_mem hp
      have hrow : ∀ j, path[k].map (fun q => ((List.range width).map fun m => if m = j then a else b).getD q zero) =
          (List.range width).map fun m => if m = j then a else b := by
        intro j
        obtain ⟨d, hd, hg⟩ := h (List.replicate nE ((List.range width).map fun m => if m = j then a else b)) (by simp)
          (by intro r hr; rw [List.eq_of_mem_replicate hr]; simp)
        rw [key _ (by simp) (by intro r hr; rw [List.eq_of_mem_replicate hr]; simp)] at hd
        obtain rfl := Option.some.inj hd
        have := hg 0 k hE hk
        rw [transformed_row hk] at this
        simpa [List.getElem?_replicate, hE, List.getElem?_eq_getElem hk] using this
      have hlen : path[k].length = width := by simpa using congrArg List.length (hrow 0)
      apply List.ext_getElem (by simpa using hlen)
      intro m h1 h2
      have hm : m < width := by simpa using h2
      have hq := hin _ (List.getElem_mem hk) _ (List.getElem_mem h1)
      have := congrArg (fun l => l[m]?) (hrow m)
      simp only [List.getElem?_map, List.getElem?_eq_getElem h1, List.getElem?_range hm, Option.map_some, if_true] at this
      rw [List.getD_eq_getElem?_getD, List.getElem?_map, List.getElem?_range hq] at this
      simp only [Option.map_some, Option.getD_some, Option.some.injEq] at this
      rw [List.getElem_range]
      by_contra hne
      rw [if_neg hne] at this
      exact hab this.symm
    · exact Or.inl hw
  · rintro (hw | hall) data hd hwd
    · obtain ⟨d, h1, -, h3⟩ := C09_cell_data_partial nE nNE data width path nSubN zero hd hw
      exact ⟨d, h1, h3⟩
    · by_cases hw : width = nNE
      · subst hw
        refine ⟨_, key data hd hwd, fun i k hi hk => ?_⟩
        rw [transformed_row hk]
        have hid : i < data.length := by omega
        have hl := hwd _ (List.getElem_mem hid)
        simp only [List.getElem?_eq_getElem hid, List.getElem?_eq_getElem hk, hall _ (List.getElem_mem hk)]
        simp only [Option.map_some, Option.bind_eq_bind, Option.bind_some]
        congr 1
        apply List.ext_getElem (by simp [hl])
        intro m h1 h2
        simp [h2]
      · obtain ⟨d, h1, -, h3⟩ := C09_cell_data_partial nE nNE data width path nSubN zero hd hw
        exact ⟨d, h1, h3⟩

/-- Three numbers per triangle, and the triangle split into its edges or kept as it is. -/
example : transformTopologyData 1 3 [[10, 20, 30]] 3 [[0, 1], [1, 2]] 2 0 = some [[10, 20], [20, 30]] ∧
    transformTopologyData 1 3 [[10, 20, 30]] 3 [[0, 1, 2], [0, 1, 2]] 3 0 = some [[10, 20, 30], [10, 20, 30]] := by decide

end PM
