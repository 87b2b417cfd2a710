import Verif.PropsExtrudeFit

/-!
# C15, C128: exactly when the tetrahedra of extruded triangles fit together

The diagonals of the lateral faces agree, and the tetrahedra fit together, if and only if the triangles list the ends of common edges in the
same order.
-/

namespace PM
open V3

section
variable {K : Type}

/-- No two triangles list two points in different orders. -/
def SameOrder (tris : List (Nat × Nat × Nat)) : Prop := ∀ t ∈ tris, ∀ t' ∈ tris, ∀ p q, Before t p q → ¬ Before t' q p

theorem before_irrefl {t : Nat × Nat × Nat} (h : t.1 ≠ t.2.1 ∧ t.1 ≠ t.2.2 ∧ t.2.1 ≠ t.2.2) {p q : Nat} (hb : Before t p q) :
    p ≠ q ∧ ¬ Before t q p := by
  unfold Before at *
  omega

theorem before_mem {t : Nat × Nat × Nat} {p q : Nat} (h : Before t p q) : p ∈ [t.1, t.2.1, t.2.2] ∧ q ∈ [t.1, t.2.1, t.2.2] := by
  simp only [List.mem_cons, List.not_mem_nil, or_false]
  unfold Before at h
  omega

/-- In a prism only diagonals from an earlier to a later point occur, and all of them. -/
theorem prismEdge_iff {tris : List (Nat × Nat × Nat)} {nP zres : Nat} (ht : TrisOK nP tris)
    (hnd : ∀ t ∈ tris, t.1 ≠ t.2.1 ∧ t.1 ≠ t.2.2 ∧ t.2.1 ≠ t.2.2) {i j p q : Nat} {t : Nat × Nat × Nat} (hi : i < zres) (hj : tris[j]? = some t)
    (hpl : p < nP) (hql : q < nP) :
    PrismEdge (tetRows nP tris zres) tris.length i j (layerNode nP i p) (layerNode nP (i + 1) q) ↔ p ≠ q ∧ Before t p q ∨ p = q ∧ p ∈ [t.1, t.2.1, t.2.2] := by
  have hget : ∀ k, k < 3 → (tetRows nP tris zres)[(i * tris.length + j) * 3 + k]? =
      some ((pathExtrude.getD k []).map fun q => (prism nP i t).getD q 0) := by
    intro k hk
    obtain ⟨hjl, rfl⟩ := List.getElem?_eq_some_iff.1 hj
    rw [Nat.add_mul]; exact tetRows_get hi hjl hk
  have hinj : ∀ a b x y, a < nP → b < nP → (layerNode nP x a = layerNode nP y b ↔ x = y ∧ a = b) := by
    intro a b x y ha hb
    constructor
    · exact mixed_radix_inj ha hb
    · rintro ⟨rfl, rfl⟩; rfl
  have htl := ht t (List.mem_of_getElem? hj)
  have hndt := hnd t (List.mem_of_getElem? hj)
  obtain ⟨a, b, c⟩ := t
  simp only at htl hndt
  constructor
  · rintro ⟨k, r, hk, hr, h1, h2⟩
    rw [hget k hk, Option.some.injEq] at hr
    subst hr
    match k, hk with
    | 0, _ =>
      simp [pathExtrude, prism, hinj, hpl, hql, htl] at h1 h2
      simp only [Before, List.mem_cons, List.not_mem_nil, or_false]; omega
    | 1, _ =>
      simp [pathExtrude, prism, hinj, hpl, hql, htl] at h1 h2
      simp only [Before, List.mem_cons, List.not_mem_nil, or_false]; omega
    | 2, _ =>
      simp [pathExtrude, prism, hinj, hpl, hql, htl] at h1 h2
      simp only [Before, List.mem_cons, List.not_mem_nil, or_false]; omega
  · rintro (⟨-, ⟨rfl, rfl⟩ | ⟨rfl, rfl⟩ | ⟨rfl, rfl⟩⟩ | ⟨rfl, h⟩)
    · exact ⟨1, _, by decide, hget 1 (by decide), by simp [pathExtrude, prism], by simp [pathExtrude, prism]⟩
    · exact ⟨1, _, by decide, hget 1 (by decide), by simp [pathExtrude, prism], by simp [pathExtrude, prism]⟩
    · exact ⟨1, _, by decide, hget 1 (by decide), by simp [pathExtrude, prism], by simp [pathExtrude, prism]⟩
    · simp only [List.mem_cons, List.not_mem_nil, or_false] at h
      rcases h with rfl | rfl | rfl
      · exact ⟨2, _, by decide, hget 2 (by decide), by simp [pathExtrude, prism], by simp [pathExtrude, prism]⟩
      · exact ⟨1, _, by decide, hget 1 (by decide), by simp [pathExtrude, prism], by simp [pathExtrude, prism]⟩
      · exact ⟨0, _, by decide, hget 0 (by decide), by simp [pathExtrude, prism], by simp [pathExtrude, prism]⟩

/-- **C15** exactly when the diagonals agree. -/
theorem C15_diagonals_exact [Field K] (points : List (K × K)) (tris : List (Nat × Nat × Nat)) (h : K) (zres : Nat) (hz : 0 < zres)
    (ht : TrisOK points.length tris) (hnd : ∀ t ∈ tris, t.1 ≠ t.2.1 ∧ t.1 ≠ t.2.2 ∧ t.2.1 ≠ t.2.2) :
    DiagonalsAgree tris points.length zres (extrudeT3TET4 points tris h zres).2 ↔
      ∀ t ∈ tris, ∀ t' ∈ tris, ∀ p q, Before t p q → ¬ Before t' q p := by
  refine ⟨fun hd t htm t' htm' p q hb hb' => ?_, C15_diagonals_partial points tris h zres ht hnd⟩
  have hT : (extrudeT3TET4 points tris h zres).2 = tetRows points.length tris zres := by
    rw [extrudeT3TET4, extrudeTet_eq _ _ _ (.refl _)]
  rw [hT] at hd
  obtain ⟨j, hj⟩ := List.getElem?_of_mem htm
  obtain ⟨j', hj'⟩ := List.getElem?_of_mem htm'
  obtain ⟨hpq, _⟩ := before_irrefl (hnd t htm) hb
  obtain ⟨hp, hq⟩ := before_mem hb
  obtain ⟨hq', hp'⟩ := before_mem hb'
  have hlt : ∀ p ∈ [t.1, t.2.1, t.2.2], p < points.length := triRow_lt (ht t htm)
  have := hd 0 j j' p q t t' hz hj hj' hpq hp hq hp' hq' ((prismEdge_iff ht hnd hz hj (hlt p hp) (hlt q hq)).2 (Or.inl ⟨hpq, hb⟩))
  rcases (prismEdge_iff ht hnd hz hj' (hlt p hp) (hlt q hq)).1 this with ⟨_, h2⟩ | ⟨h2, _⟩
  · exact (before_irrefl (hnd t' htm') h2).2 hb'
  · exact hpq h2

variable [Field K] [LinearOrder K] [IsStrictOrderedRing K]

/-- **C128** exactly when the tetrahedra fit together. -/
theorem C128_tets_exact (points : List (K × K)) (tris : List (Nat × Nat × Nat)) (h : K) (zres : Nat) (hp : PlaneFit points tris)
    (hh : 0 < h) (hz : 0 < zres) (C : List (List K)) (T : Topo) (hr : extrudeT3TET4 points tris h zres = (C, T)) :
    FaceToFace (pt3 C) T ↔ ∀ t ∈ tris, ∀ t' ∈ tris, ∀ p q, Before t p q → ¬ Before t' q p := by
  refine ⟨fun hf t ht t' ht' p q hb hb' => ?_, fun hord => (C128_tets_partial points tris h zres hp hh hord C T hr).1⟩
  obtain ⟨hC, hrow⟩ := tet_row hr
  have nd : ∀ t ∈ tris, t.1 ≠ t.2.1 ∧ t.1 ≠ t.2.2 ∧ t.2.1 ≠ t.2.2 := by
    intro t ht
    have := nodup_of_area (hp.area t ht)
    simp only [triRow, List.nodup_cons, List.mem_cons, List.not_mem_nil, or_false, not_or] at this
    exact ⟨this.1.1, this.1.2, this.2.1⟩
  obtain ⟨hpq, _⟩ := before_irrefl (nd t ht) hb
  have hpath : [0, 1, 5, 4] ∈ pathExtrude := by decide
  have mem : ∀ {t : Nat × Nat × Nat} {p q : Nat}, Before t p q → (0, p) ∈ tetPairs 0 t [0, 1, 5, 4] ∧ (1, q) ∈ tetPairs 0 t [0, 1, 5, 4] := by
    rintro t p q (⟨rfl, rfl⟩ | ⟨rfl, rfl⟩ | ⟨rfl, rfl⟩) <;> simp [tetPairs, wedgePairs]
  obtain ⟨b, s⟩ := tet_between (i := 0) (nodup_of_area (hp.area t ht)) hpath
  obtain ⟨b', s'⟩ := tet_between (i := 0) (nodup_of_area (hp.area t' ht')) hpath
  have hB := b.inBox hz (hp.ok t ht)
  have hB' := b'.inBox hz (hp.ok t' ht')
  obtain ⟨m1, m2⟩ := mem hb
  obtain ⟨m3, m4⟩ := mem hb'
  set ζ := layerZ h zres with hζ
  have hmono : StrictMono ζ := zeta_mono hh hz
  -- the point where the diagonals cross
  let M : V3 K := ⟨((planePts points p).x + (planePts points q).x) / 2, ((planePts points p).y + (planePts points q).y) / 2, (ζ 0 + ζ 1) / 2⟩
  have half : ∀ {p q : Nat} {L : List (Nat × Nat)}, (0, p) ∈ layerBox points.length zres → (1, q) ∈ layerBox points.length zres →
      (0, p) ∈ L → (1, q) ∈ L →
      HullWeights (layerPos points ζ) (layerBox points.length zres) L
        ⟨((planePts points p).x + (planePts points q).x) / 2, ((planePts points p).y + (planePts points q).y) / 2, (ζ 0 + ζ 1) / 2⟩
        (fun x => (if x = (0, p) then 1 / 2 else 0) + (if x = (1, q) then 1 / 2 else 0)) := by
    intro p q L k1 k2 k3 k4
    have sum : ∀ f : Nat × Nat → K, ∑ x ∈ layerBox points.length zres,
        ((if x = (0, p) then 1 / 2 else 0) + (if x = (1, q) then 1 / 2 else 0)) * f x = (f (0, p) + f (1, q)) / 2 := by
      intro f
      simp only [add_mul, ite_mul, zero_mul, Finset.sum_add_distrib, Finset.sum_ite_eq', if_pos k1, if_pos k2]
      ring
    constructor
    · intro x
      have h2 : (0 : K) ≤ 1 / 2 := by norm_num
      split_ifs <;> linarith
    · intro x hx
      have e1 : x ≠ (0, p) := fun e => hx (e ▸ k3)
      have e2 : x ≠ (1, q) := fun e => hx (e ▸ k4)
      simp [e1, e2]
    · have := sum fun _ => 1
      simp only [mul_one] at this
      rw [this]; norm_num
    · exact sum fun x => (layerPos points ζ x).x
    · exact sum fun x => (layerPos points ζ x).y
    · exact sum fun x => (layerPos points ζ x).z
  have w1 := half (hB _ m1) (hB _ m2) m1 m2
  have w2 := half (hB' _ m3) (hB' _ m4) m3 m4
  rw [add_comm (planePts points q).x, add_comm (planePts points q).y] at w2
  have P1 := hull_of_weights b.nodup hB w1
  have P2 := hull_of_weights b'.nodup hB' w2
  rw [← map_layers hC hB] at P1
  rw [← map_layers hC hB'] at P2
  have := hf _ ((hrow _).2 ⟨0, t, _, hz, ht, hpath, rfl⟩) _ ((hrow _).2 ⟨0, t', _, hz, ht', hpath, rfl⟩) _ P1 P2
  have hBf : ∀ x ∈ (tetPairs 0 t [0, 1, 5, 4]).filter (· ∈ tetPairs 0 t' [0, 1, 5, 4]), x ∈ layerBox points.length zres :=
    fun x hx => hB x (List.mem_filter.1 hx).1
  rw [filter_layers hB hB', map_layers hC hBf] at this
  obtain ⟨G, hG⟩ := weights_of_hull (b.nodup.filter _) hBf this
  have hG' : HullWeights (layerPos points ζ) (layerBox points.length zres) (tetPairs 0 t [0, 1, 5, 4]) _ G :=
    ⟨hG.nonneg, fun x hx => hG.supp x fun hx' => hx (List.mem_filter.1 hx').1, hG.one, hG.x, hG.y, hG.z⟩
  have e := same_layer hp hmono ht ht (fun p q h1 => (before_irrefl (nd t ht) h1).2) b b s s hz w1 hG'
  have inL' : ∀ x, G x ≠ 0 → x ∈ tetPairs 0 t' [0, 1, 5, 4] := by
    intro x hx
    by_contra hno
    exact hx (hG.supp x fun hx' => hno (by simpa using (List.mem_filter.1 hx').2))
  have k1 := inL' (0, p) (by rw [← e]; norm_num)
  have k2 := inL' (1, q) (by rw [← e]; norm_num)
  exact s' q p hb' k2 k1

end

end PM
