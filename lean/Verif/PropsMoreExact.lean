import Verif.PropsVolumes
import Verif.PropsLocate

/-!
# C13, C25, C48: what happens where these claims fail

When the tetrahedra of a wedge have its volume (C13), what distributing and collecting with the same factors gives (C25), and which hit is
reported (C48).
-/

namespace PM
open V3

section
variable {K : Type} [Field K] [LinearOrder K] [IsStrictOrderedRing K]

/-! ## C13 -/

/-- The error of `W6_to_TET4` on wedges with plane lateral faces. -/
theorem wedge_error (X : Nat → V3 K) (h1 : Coplanar4 (X 0) (X 1) (X 4) (X 3)) (h2 : Coplanar4 (X 1) (X 2) (X 5) (X 4))
    (h3 : Coplanar4 (X 2) (X 0) (X 3) (X 5)) :
    wedgeVol12 X - 2 * tetSum X pathW6TET4 = 2 * det3 (X 5 - X 3) (X 2 - X 0) (X 4 - X 0) := by
  simp only [Coplanar4, vol6, det3, sub_x, sub_y, sub_z] at h1 h2 h3
  simp only [wedgeVol12, tetSum, pathW6TET4, List.map_cons, List.map_nil, List.sum_cons, List.sum_nil, sub, List.getD_cons_zero,
    List.getD_cons_succ, vol6, flux4, flux3, det3, sub_x, sub_y, sub_z]
  linear_combination h1 - h2 + h3

/-- **C13** exactly which wedges keep their volume: of the wedges with plane lateral faces, node 4 outside the plane of nodes 0, 2, 3, those
whose edges 0–2 and 3–5 are parallel. -/
theorem C13_W6_to_TET4_exact (X : Nat → V3 K) (h1 : Coplanar4 (X 0) (X 1) (X 4) (X 3)) (h2 : Coplanar4 (X 1) (X 2) (X 5) (X 4))
    (h3 : Coplanar4 (X 2) (X 0) (X 3) (X 5)) (h4 : ¬ Coplanar4 (X 0) (X 2) (X 3) (X 4)) :
    2 * tetSum X pathW6TET4 = wedgeVol12 X ↔ ∃ s : K, X 5 - X 3 = s • (X 2 - X 0) := by
  have e := wedge_error X h1 h2 h3
  have e' : 2 * tetSum X pathW6TET4 = wedgeVol12 X ↔ det3 (X 5 - X 3) (X 2 - X 0) (X 4 - X 0) = 0 := by
    constructor
    · intro h; linear_combination (-1 / 2) * e - (1 / 2) * h
    · intro h; linear_combination -e + (-2) * h
  rw [e']
  constructor
  · intro h
    refine ⟨det3 (X 5 - X 3) (X 3 - X 0) (X 4 - X 0) / vol6 (X 0) (X 2) (X 3) (X 4), ?_⟩
    have h4' : vol6 (X 0) (X 2) (X 3) (X 4) ≠ 0 := h4
    simp only [Coplanar4, vol6, det3, sub_x, sub_y, sub_z] at h h3 h4' ⊢
    ext
    · simp only [sub_x, smul_x]
      rw [div_mul_eq_mul_div, eq_div_iff h4']
      linear_combination (-((X 3).x - (X 0).x)) * h - ((X 4).x - (X 0).x) * h3
    · simp only [sub_y, smul_y]
      rw [div_mul_eq_mul_div, eq_div_iff h4']
      linear_combination (-((X 3).y - (X 0).y)) * h - ((X 4).y - (X 0).y) * h3
    · simp only [sub_z, smul_z]
      rw [div_mul_eq_mul_div, eq_div_iff h4']
      linear_combination (-((X 3).z - (X 0).z)) * h - ((X 4).z - (X 0).z) * h3
  · rintro ⟨s, hs⟩
    rw [hs]
    simp only [det3, smul_x, smul_y, smul_z]
    ring

/-- Both cases occur: the unit wedge and the one under a sloping top. -/
example : ¬ Coplanar4 (slopedWedge (K := ℚ) 0) (slopedWedge 2) (slopedWedge 3) (slopedWedge 4) ∧
    ¬ ∃ s : ℚ, slopedWedge 5 - slopedWedge 3 = s • (slopedWedge 2 - slopedWedge 0 : V3 ℚ) := by
  refine ⟨by norm_num [Coplanar4, vol6, det3, slopedWedge], ?_⟩
  rintro ⟨s, hs⟩
  have := congrArg V3.z hs
  norm_num [slopedWedge] at this

/-! ## C48 -/

/-- With values growing at every place, the largest one stays. -/
theorem runW_last {w : List (Nat × Nat)} (h : w.Pairwise fun x y => x.1 = y.1 → x.2 < y.2) (m : Nat → Nat) (p : Nat) {v : Nat} (hv : (p, v) ∈ w)
    (hmax : ∀ u, (p, u) ∈ w → u ≤ v) : runW w m p = v := by
  induction w generalizing m with
  | nil => simp at hv
  | cons y w ih =>
    rw [List.pairwise_cons] at h
    by_cases hw : (p, v) ∈ w
    · exact ih h.2 _ hw fun u hu => hmax u (List.mem_cons_of_mem _ hu)
    · obtain rfl : (p, v) = y := by
        rcases List.mem_cons.1 hv with h' | h'
        · exact h'
        · exact absurd h' hw
      have hno : ∀ x ∈ w, x.1 ≠ p := by
        rintro ⟨x1, x2⟩ hx rfl
        have a := h.1 _ hx rfl
        have b := hmax x2 (List.mem_cons_of_mem _ hx)
        simp only at a
        omega
      show runW w (Function.update m p v) p = v
      rw [runW_of_not_mem hno]; simp

theorem hitWrites_pairwise (pips : List (List Bool)) : (hitWrites pips).Pairwise fun x y => x.1 = y.1 → x.2 < y.2 := by
  unfold hitWrites
  rw [List.pairwise_flatMap]
  have hz : ∀ {α : Type} (l : List α), (l.zipIdx).Pairwise fun x y => x.2 < y.2 := by
    intro α l
    have h : (l.zipIdx.map Prod.snd).Pairwise (· < ·) := by
      rw [List.zipIdx_map_snd]; exact List.pairwise_lt_range'
    exact List.pairwise_map.1 h
  constructor
  · intro r _
    rw [List.pairwise_map]
    refine ((hz r.1).filter _).imp ?_
    intro a b h _
    exact h
  · refine (hz pips).imp ?_
    intro a b hab x hx y hy e
    obtain ⟨_, _, rfl⟩ := List.mem_map.1 hx
    obtain ⟨_, _, rfl⟩ := List.mem_map.1 hy
    simp only at e
    omega

/-- **C48** which hit is reported: in the natural order of the loops the last one; depending on the order any one; for points without hits always
index zero. -/
theorem C48_exact (pips : List (List Bool)) (i : Nat) (r : List Bool) (hi : pips[i]? = some r) :
    (∀ j, r[j]? = some true → (∀ k, j < k → r[k]? ≠ some true) → (hitsRun pips.length (hitWrites pips))[i]? = some j) ∧
    (∀ j, r[j]? = some true → ∃ w, (hitWrites pips).Perm w ∧ (hitsRun pips.length w)[i]? = some j) ∧
    (true ∉ r → ∀ w, (hitWrites pips).Perm w → (hitsRun pips.length w)[i]? = some 0) := by
  have hil := (List.getElem?_eq_some_iff.1 hi).1
  refine ⟨fun j hj hmax => ?_, fun j hj => ?_, fun hno w hw => ?_⟩
  · unfold hitsRun
    rw [toArr_getElem? _ hil, runW_last (hitWrites_pairwise pips) _ i (mem_hitWrites.2 ⟨r, hi, hj⟩)]
    intro u hu
    obtain ⟨r', h1, h2⟩ := mem_hitWrites.1 hu
    rw [hi, Option.some.injEq] at h1
    subst h1
    by_contra hlt
    exact hmax u (by omega) h2
  · have hm : (i, j) ∈ hitWrites pips := mem_hitWrites.2 ⟨r, hi, hj⟩
    refine ⟨(hitWrites pips).erase (i, j) ++ [(i, j)], ?_, ?_⟩
    · exact (List.perm_cons_erase hm).trans (List.perm_append_comm (l₁ := [(i, j)]))
    · unfold hitsRun
      rw [toArr_getElem? _ hil]
      simp [runW]
  · unfold hitsRun
    rw [toArr_getElem? _ hil, runW_of_not_mem]
    rintro ⟨a, b⟩ hx rfl
    obtain ⟨r', h1, h2⟩ := mem_hitWrites.1 (hw.mem_iff.2 hx)
    rw [hi, Option.some.injEq] at h1
    subst h1
    exact hno (List.mem_of_getElem? h2)

/-! ## C25 -/

/-- Numbers between zero and one with sum and sum of squares equal to one are a single one. -/
theorem sq_sum_one {l : List K} (h : ∀ x ∈ l, 0 < x ∧ x ≤ 1) (hs : l.sum = 1) : (l.map fun x => x * x).sum = 1 ↔ l.length = 1 := by
  constructor
  · intro hq
    have hle : ∀ l : List K, (∀ x ∈ l, 0 < x ∧ x ≤ 1) → (l.map fun x => x * x).sum ≤ l.sum ∧ 0 ≤ l.sum := by
      intro l hl
      induction l with
      | nil => simp
      | cons a l ih =>
        have := ih fun x hx => hl x (List.mem_cons_of_mem _ hx)
        have ha := hl a List.mem_cons_self
        simp only [List.map_cons, List.sum_cons]
        constructor
        · nlinarith
        · linarith
    match l, h, hs, hq with
    | [], _, hs, _ => simp at hs
    | [a], _, _, _ => rfl
    | a :: b :: l, h, hs, hq =>
      exfalso
      have h1 := hle l fun x hx => h x (by simp [hx])
      have ha := h a (by simp)
      have hb := h b (by simp)
      simp only [List.map_cons, List.sum_cons] at hs hq
      have : a < 1 := by linarith
      nlinarith
  · intro hl
    obtain ⟨a, rfl⟩ := List.length_eq_one_iff.1 hl
    simp at hs
    simp [hs]

variable {M : Type} [AddCommGroup M] [Module K M]

/-- **C25** distributing and collecting with the same factors multiplies the datum of a node by the sum of the squares of its factors: data other than
zero survive exactly at the nodes that occur at one place only. -/
theorem C25_same_factors_exact {T : Topo} {w : List K} {F : List (List K)} (hP : IsPartition T w F) {data : List M}
    (hin : ∀ n, UsesNode T n → n < data.length) :
    ∃ E R, distribute data T F = some E ∧ pullPoints data.length [⟨List.range T.length, T, E⟩] F = some R ∧ R.length = data.length ∧
      ∀ n ps, n < data.length → IncidenceList T n ps →
        R[n]? = some ((ps.map fun p => (nodeAt F p.1 p.2).getD 0 * (nodeAt F p.1 p.2).getD 0).sum • data.getD n 0) ∧
        (ps ≠ [] → data.getD n 0 ≠ 0 → (R[n]? = data[n]? ↔ ps.length = 1)) := by
  have hF : ∀ c j n, nodeAt T c j = some n → ∃ f, nodeAt F c j = some f := by
    intro c j n h
    rw [nodeAt] at h ⊢
    cases ht : T[c]? with
    | none => rw [ht] at h; cases h
    | some r =>
      rw [ht] at h
      change r[j]? = some n at h
      have hj := (List.getElem?_eq_some_iff.1 h).1
      have hl := congrArg (fun l : List Nat => l[c]?) hP.shape
      simp only [List.getElem?_map, ht, Option.map_some] at hl
      obtain ⟨d, hd, hdl⟩ := Option.map_eq_some_iff.1 hl
      rw [hd]
      have hjd : j < d.length := by omega
      exact ⟨d[j], List.getElem?_eq_getElem hjd⟩
  obtain ⟨E, hE, hs, hv⟩ := distribute_closed hin hF
  have hb : ∀ b ∈ [(⟨List.range T.length, T, E⟩ : CBlock M)], BlockOK b := by
    intro b hb
    rw [List.mem_singleton] at hb
    subst hb
    exact ⟨by simp, hs⟩
  have eT : allTopo [(⟨List.range T.length, T, E⟩ : CBlock M)] = T := by simp [allTopo]
  have eD : allData [(⟨List.range T.length, T, E⟩ : CBlock M)] = E := by simp [allData]
  have eI : allIds [(⟨List.range T.length, T, E⟩ : CBlock M)] = List.range T.length := by simp [allIds]
  obtain ⟨R, hR, hW⟩ := C25_pull (List.cons_ne_nil _ _) hb (nP := data.length) (F := F)
    (f := fun c j => (nodeAt F c j).getD 0) (by rw [eT]; exact hin) (by
      rw [eT, eI]
      intro c j n h
      have hc : c < T.length := by
        rw [nodeAt] at h
        by_contra hc
        rw [List.getElem?_eq_none (by omega)] at h
        cases h
      obtain ⟨f, hf⟩ := hF c j n h
      exact ⟨c, List.getElem?_range hc, by rw [hf]; rfl⟩)
  rw [eT, eD] at hW
  refine ⟨E, R, hE, hR, hW.1, fun n ps hn hps => ?_⟩
  have e1 : (ps.map fun p => (nodeAt F p.1 p.2).getD 0 • (nodeAt E p.1 p.2).getD 0) =
      ps.map fun p => ((nodeAt F p.1 p.2).getD 0 * (nodeAt F p.1 p.2).getD 0) • data.getD n 0 := by
    apply List.map_congr_left
    rintro ⟨c, j⟩ hp
    rw [hv c j n ((hps.exact c j).1 hp), mul_smul]; rfl
  have e2 : R[n]? = some ((ps.map fun p => (nodeAt F p.1 p.2).getD 0 * (nodeAt F p.1 p.2).getD 0).sum • data.getD n 0) := by
    rw [hW.2 n ps hn hps, e1, sum_smul_const]
  refine ⟨e2, fun hne hd => ?_⟩
  have e3 : data[n]? = some ((1 : K) • data.getD n 0) := by
    rw [one_smul, List.getD_eq_getElem?_getD, List.getElem?_eq_getElem hn]; rfl
  have hpos : ∀ x ∈ ps.map fun p => (nodeAt F p.1 p.2).getD 0, 0 < x ∧ x ≤ 1 := by
    intro x hx
    obtain ⟨⟨c, j⟩, hp, rfl⟩ := List.mem_map.1 hx
    obtain ⟨f, hf⟩ := hF c j n ((hps.exact c j).1 hp)
    have := hf
    rw [nodeAt] at this
    cases hr : F[c]? with
    | none => rw [hr] at this; cases this
    | some r =>
      rw [hr] at this
      have := hP.pos r (List.mem_of_getElem? hr) f (List.mem_of_getElem? this)
      simpa [hf] using this
  have := sq_sum_one hpos (hP.sum_one n ps hps hne)
  rw [List.map_map, List.length_map] at this
  rw [e2, e3, Option.some.injEq, ← this]
  constructor
  · intro h
    have h' := sub_eq_zero.2 h
    rw [← sub_smul] at h'
    by_contra hne'
    have h2 := congrArg (fun v => ((ps.map fun p => (nodeAt F p.1 p.2).getD 0 * (nodeAt F p.1 p.2).getD 0).sum - 1)⁻¹ • v) h'
    have h3 : (ps.map fun p => (nodeAt F p.1 p.2).getD 0 * (nodeAt F p.1 p.2).getD 0).sum - 1 ≠ 0 := sub_ne_zero.2 hne'
    simp only [smul_zero, smul_smul, inv_mul_cancel₀ h3, one_smul] at h2
    exact hd h2
  · intro h
    exact congrArg (· • data.getD n 0) h

end

end PM
