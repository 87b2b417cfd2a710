import Verif.PropsExtrudeFit
import Verif.PropsGridRefine
import Verif.PropsGridTiles

/-!
# Property C129 (grids fit together)

Cells of `gridQ4`, `gridQ9`, `gridH8`, `gridH27` and the triangles made of plane grids: what two cells share is spanned
by their common nodes (`FaceToFace`, C128).
-/

set_option linter.unusedSectionVars false

namespace PM
open V3

section
variable {K : Type} [Field K] [LinearOrder K] [IsStrictOrderedRing K]

/-! ## one axis -/

/-- Nodes at `X`, up to `N` of them, and cells `i < n` with the nodes `I i`, between `lo i` and `hi i`: what two cells
share is spanned by their common nodes. -/
structure AxisFit (X : Nat → K) (n N : Nat) (I : Nat → Nat → Prop) (lo hi : Nat → K) : Prop where
  lt : ∀ i D, i < n → I i D → D < N
  bound : ∀ i D, i < n → I i D → lo i ≤ X D ∧ X D ≤ hi i
  common : ∀ i i', i < n → i' < n → ∀ x, lo i ≤ x → x ≤ hi i → lo i' ≤ x → x ≤ hi i' →
    ∃ u : Nat → K, (∀ D, 0 ≤ u D) ∧ (∀ D, u D ≠ 0 → I i D ∧ I i' D) ∧ ∑ D ∈ Finset.range N, u D = 1 ∧
      ∑ D ∈ Finset.range N, u D * X D = x

/-- One point at `z = 0`. -/
theorem axisFit_one : AxisFit (fun _ => (0 : K)) 1 1 (fun _ D => D = 0) (fun _ => 0) (fun _ => 0) := by
  refine ⟨?_, ?_, ?_⟩
  · rintro i D _ rfl; omega
  · intro i D _ _; exact ⟨le_rfl, le_rfl⟩
  · intro i i' _ _ x h1 h2 _ _
    refine ⟨fun D => if D = 0 then 1 else 0, ?_, ?_, by simp, by simp; exact le_antisymm h1 h2⟩
    · intro D; simp only; split
      · exact zero_le_one
      · exact le_rfl
    · intro D h
      have : D = 0 := by by_contra h0; exact h (by simp [h0])
      exact ⟨this, this⟩

theorem mono_le {X : Nat → K} {m : Nat} (h : ∀ D, D < m → X D < X (D + 1)) : ∀ {a b}, a ≤ b → b ≤ m → X a ≤ X b := by
  intro a b hab
  induction b with
  | zero => intro _; rw [Nat.le_zero.1 hab]
  | succ b ih =>
    intro hb
    rcases Nat.lt_or_ge b a with h1 | h1
    · rw [show a = b + 1 by omega]
    · exact (ih h1 (by omega)).trans (h b (by omega)).le

theorem mono_lt {X : Nat → K} {m : Nat} (h : ∀ D, D < m → X D < X (D + 1)) {a b : Nat} (hab : a < b) (hb : b ≤ m) : X a < X b :=
  (h a (by omega)).trans_le (mono_le h hab hb)

/-- Two nodes and the point between them. -/
theorem between_two {X : Nat → K} {N a b : Nat} (hab : a < b) (hb : b < N) (hX : X a < X b) {x : K} (h1 : X a ≤ x) (h2 : x ≤ X b) :
    ∃ u : Nat → K, (∀ D, 0 ≤ u D) ∧ (∀ D, u D ≠ 0 → D = a ∨ D = b) ∧ ∑ D ∈ Finset.range N, u D = 1 ∧
      ∑ D ∈ Finset.range N, u D * X D = x := by
  have hd : 0 < X b - X a := sub_pos.2 hX
  have key : ∀ φ : Nat → K, ∑ D ∈ Finset.range N, (if D = a then (X b - x) / (X b - X a) else if D = b then (x - X a) / (X b - X a) else 0) * φ D =
      (X b - x) / (X b - X a) * φ a + (x - X a) / (X b - X a) * φ b := by
    intro φ
    rw [Finset.sum_eq_add a b (by omega)]
    · rw [if_pos rfl, if_neg (by omega), if_pos rfl]
    · intro c _ hc; rw [if_neg hc.1, if_neg hc.2, zero_mul]
    · intro hh; simp at hh; omega
    · intro hh; simp at hh; omega
  refine ⟨fun D => if D = a then (X b - x) / (X b - X a) else if D = b then (x - X a) / (X b - X a) else 0, ?_, ?_, ?_, ?_⟩
  · intro D
    simp only
    split
    · exact div_nonneg (by linarith) hd.le
    · split
      · exact div_nonneg (by linarith) hd.le
      · exact le_rfl
  · intro D h
    by_contra hc
    push Not at hc
    exact h (by simp [hc.1, hc.2])
  · have := key fun _ => 1
    simp only [mul_one] at this
    rw [this]
    field_simp
    ring
  · rw [key]
    field_simp
    ring

/-- Cells of `s` intervals each of an increasing sequence of nodes. -/
theorem axisFit_stride {X : Nat → K} {s n : Nat} (hs : 1 ≤ s) (h : ∀ D, D < s * n → X D < X (D + 1)) :
    AxisFit X n (s * n + 1) (fun i D => s * i ≤ D ∧ D ≤ s * i + s) (fun i => X (s * i)) (fun i => X (s * i + s)) := by
  have top : ∀ i, i < n → s * i + s ≤ s * n := by
    intro i hi
    calc s * i + s = s * (i + 1) := by ring
      _ ≤ s * n := Nat.mul_le_mul_left _ hi
  have step : ∀ i i', i < i' → i' < n → s * i + s ≤ s * i' := by
    intro i i' h _
    calc s * i + s = s * (i + 1) := by ring
      _ ≤ s * i' := Nat.mul_le_mul_left _ h
  refine ⟨?_, ?_, ?_⟩
  · intro i D hi hD; have := top i hi; omega
  · intro i D hi hD
    have := top i hi
    exact ⟨mono_le h hD.1 (by omega), mono_le h hD.2 this⟩
  · have one : ∀ D0 x, D0 ≤ s * n → x = X D0 → ∃ u : Nat → K, (∀ D, 0 ≤ u D) ∧ (∀ D, u D ≠ 0 → D = D0) ∧
        ∑ D ∈ Finset.range (s * n + 1), u D = 1 ∧ ∑ D ∈ Finset.range (s * n + 1), u D * X D = x := by
      intro D0 x h0 hx
      refine ⟨fun D => if D = D0 then 1 else 0, ?_, ?_, ?_, ?_⟩
      · intro D; simp only; split
        · exact zero_le_one
        · exact le_rfl
      · intro D h
        by_contra h0
        exact h (by simp [h0])
      · simp; omega
      · simp only [ite_mul, one_mul, zero_mul, Finset.sum_ite_eq', Finset.mem_range, hx]
        rw [if_pos (by omega)]
    have lt_case : ∀ i i', i < i' → i' < n → ∀ x, x ≤ X (s * i + s) → X (s * i') ≤ x → s * i' = s * i + s ∧ x = X (s * i') := by
      intro i i' hlt hi' x h1 h2
      have hst := step i i' hlt hi'
      have htop := top i' hi'
      rcases Nat.lt_or_eq_of_le hst with h3 | h3
      · have := mono_lt h h3 (by omega)
        exact absurd (h2.trans h1) (not_le.2 this)
      · exact ⟨h3.symm, le_antisymm (h3 ▸ h1) h2⟩
    intro i i' hi hi' x a1 a2 b1 b2
    rcases Nat.lt_trichotomy i i' with hlt | rfl | hlt
    · obtain ⟨e, ex⟩ := lt_case i i' hlt hi' x a2 b1
      have htop := top i' hi'
      obtain ⟨u, u1, u2, u3, u4⟩ := one (s * i') x (by omega) ex
      exact ⟨u, u1, fun D hD => by have := u2 D hD; omega, u3, u4⟩
    · have htop := top i hi
      obtain ⟨u, u1, u2, u3, u4⟩ := between_two (N := s * n + 1) (show s * i < s * i + s by omega) (by omega)
        (mono_lt h (by omega) htop) a1 a2
      exact ⟨u, u1, fun D hD => by have := u2 D hD; omega, u3, u4⟩
    · obtain ⟨e, ex⟩ := lt_case i' i hlt hi x b2 a1
      have htop := top i hi
      obtain ⟨u, u1, u2, u3, u4⟩ := one (s * i) x (by omega) ex
      exact ⟨u, u1, fun D hD => by have := u2 D hD; omega, u3, u4⟩

/-! ## products of axes -/

/-- The node `q` belongs to the cell `p`. -/
def InCell (I1 I2 I3 : Nat → Nat → Prop) (p q : Nat × Nat × Nat) : Prop := I1 p.1 q.1 ∧ I2 p.2.1 q.2.1 ∧ I3 p.2.2 q.2.2

theorem hull_bounds {pts : List (V3 K)} {p lo hi : V3 K} (h : Hull pts p)
    (hb : ∀ q ∈ pts, (lo.x ≤ q.x ∧ q.x ≤ hi.x) ∧ (lo.y ≤ q.y ∧ q.y ≤ hi.y) ∧ (lo.z ≤ q.z ∧ q.z ≤ hi.z)) :
    (lo.x ≤ p.x ∧ p.x ≤ hi.x) ∧ (lo.y ≤ p.y ∧ p.y ≤ hi.y) ∧ (lo.z ≤ p.z ∧ p.z ≤ hi.z) := by
  have a1 := hull_nonneg h ⟨1, 0, 0⟩ (-lo.x) (fun q hq => by have := hb q hq; simp [dot]; linarith)
  have a2 := hull_nonneg h ⟨-1, 0, 0⟩ hi.x (fun q hq => by have := hb q hq; simp [dot]; linarith)
  have a3 := hull_nonneg h ⟨0, 1, 0⟩ (-lo.y) (fun q hq => by have := hb q hq; simp [dot]; linarith)
  have a4 := hull_nonneg h ⟨0, -1, 0⟩ hi.y (fun q hq => by have := hb q hq; simp [dot]; linarith)
  have a5 := hull_nonneg h ⟨0, 0, 1⟩ (-lo.z) (fun q hq => by have := hb q hq; simp [dot]; linarith)
  have a6 := hull_nonneg h ⟨0, 0, -1⟩ hi.z (fun q hq => by have := hb q hq; simp [dot]; linarith)
  simp [dot] at a1 a2 a3 a4 a5 a6
  exact ⟨⟨by linarith, by linarith⟩, ⟨by linarith, by linarith⟩, ⟨by linarith, by linarith⟩⟩

/-- Products of fitting axes fit. -/
theorem fit_product {X Y Z : Nat → K} {a b c A B C : Nat} {I1 I2 I3 : Nat → Nat → Prop} {l1 h1 l2 h2 l3 h3 : Nat → K}
    (hX : AxisFit X a A I1 l1 h1) (hY : AxisFit Y b B I2 l2 h2) (hZ : AxisFit Z c C I3 l3 h3)
    {pts : Nat → V3 K} {no : Nat × Nat × Nat → Nat}
    (hpts : ∀ q : Nat × Nat × Nat, q.1 < A → q.2.1 < B → q.2.2 < C → pts (no q) = ⟨X q.1, Y q.2.1, Z q.2.2⟩) {T : Topo}
    (hT : ∀ r ∈ T, ∃ p : Nat × Nat × Nat, (p.1 < a ∧ p.2.1 < b ∧ p.2.2 < c) ∧ ∃ L : List (Nat × Nat × Nat), r = L.map no ∧
      ∀ q, q ∈ L ↔ InCell I1 I2 I3 p q) : FaceToFace pts T := by
  intro r hr r' hr' P hP hP'
  obtain ⟨p, ⟨p1, p2, p3⟩, L, rfl, hL⟩ := hT r hr
  obtain ⟨p', ⟨p1', p2', p3'⟩, L', rfl, hL'⟩ := hT r' hr'
  have inb : ∀ p : Nat × Nat × Nat, p.1 < a → p.2.1 < b → p.2.2 < c → ∀ L : List (Nat × Nat × Nat), (∀ q, q ∈ L ↔ InCell I1 I2 I3 p q) →
      Hull ((L.map no).map pts) P → (l1 p.1 ≤ P.x ∧ P.x ≤ h1 p.1) ∧ (l2 p.2.1 ≤ P.y ∧ P.y ≤ h2 p.2.1) ∧
        (l3 p.2.2 ≤ P.z ∧ P.z ≤ h3 p.2.2) := by
    intro p p1 p2 p3 L hL hP
    refine hull_bounds (lo := ⟨l1 p.1, l2 p.2.1, l3 p.2.2⟩) (hi := ⟨h1 p.1, h2 p.2.1, h3 p.2.2⟩) hP ?_
    intro v hv
    obtain ⟨n, hn, rfl⟩ := List.mem_map.1 hv
    obtain ⟨q, hq, rfl⟩ := List.mem_map.1 hn
    obtain ⟨q1, q2, q3⟩ := (hL q).1 hq
    rw [hpts q (hX.lt _ _ p1 q1) (hY.lt _ _ p2 q2) (hZ.lt _ _ p3 q3)]
    exact ⟨hX.bound _ _ p1 q1, hY.bound _ _ p2 q2, hZ.bound _ _ p3 q3⟩
  obtain ⟨x1, y1, z1⟩ := inb p p1 p2 p3 L hL hP
  obtain ⟨x2, y2, z2⟩ := inb p' p1' p2' p3' L' hL' hP'
  obtain ⟨u, u0, us, u1, ux⟩ := hX.common _ _ p1 p1' P.x x1.1 x1.2 x2.1 x2.2
  obtain ⟨v, v0, vs, v1, vy⟩ := hY.common _ _ p2 p2' P.y y1.1 y1.2 y2.1 y2.2
  obtain ⟨w, w0, ws, w1, wz⟩ := hZ.common _ _ p3 p3' P.z z1.1 z1.2 z2.1 z2.2
  -- the weights of the common nodes, without repetitions
  let S : List (Nat × Nat × Nat) := (L.filter (· ∈ L')).dedup
  have hS : ∀ q, q ∈ S ↔ q ∈ L ∧ q ∈ L' := by intro q; simp [S]
  let Bx : Finset (Nat × Nat × Nat) := Finset.range A ×ˢ Finset.range B ×ˢ Finset.range C
  have hSB : ∀ q ∈ S, q ∈ Bx := by
    intro q hq
    obtain ⟨q1, q2, q3⟩ := (hL q).1 ((hS q).1 hq).1
    simp only [Bx, Finset.mem_product, Finset.mem_range]
    exact ⟨hX.lt _ _ p1 q1, hY.lt _ _ p2 q2, hZ.lt _ _ p3 q3⟩
  have prod : ∀ f g h : Nat → K, ∑ q ∈ Bx, f q.1 * g q.2.1 * h q.2.2 =
      (∑ D ∈ Finset.range A, f D) * (∑ D ∈ Finset.range B, g D) * ∑ D ∈ Finset.range C, h D := by
    intro f g h
    simp only [Bx, Finset.sum_product]
    rw [Finset.sum_mul_sum, Finset.sum_mul]
    apply Finset.sum_congr rfl
    intro D _
    rw [Finset.sum_mul]
    apply Finset.sum_congr rfl
    intro E _
    rw [Finset.mul_sum]
  have hW : HullWeights (fun q : Nat × Nat × Nat => (⟨X q.1, Y q.2.1, Z q.2.2⟩ : V3 K)) Bx S P
      (fun q => u q.1 * v q.2.1 * w q.2.2) := by
    refine ⟨fun q => mul_nonneg (mul_nonneg (u0 _) (v0 _)) (w0 _), ?_, ?_, ?_, ?_, ?_⟩
    · intro q hq
      by_contra hne
      have e1 : u q.1 ≠ 0 := fun h => hne (by rw [h]; ring)
      have e2 : v q.2.1 ≠ 0 := fun h => hne (by rw [h]; ring)
      have e3 : w q.2.2 ≠ 0 := fun h => hne (by rw [h]; ring)
      exact hq ((hS q).2 ⟨(hL q).2 ⟨(us _ e1).1, (vs _ e2).1, (ws _ e3).1⟩, (hL' q).2 ⟨(us _ e1).2, (vs _ e2).2, (ws _ e3).2⟩⟩)
    · rw [prod, u1, v1, w1]; ring
    · have := prod (fun D => u D * X D) v w
      rw [ux, v1, w1] at this
      rw [← mul_one P.x, ← mul_one (P.x * 1), ← this]
      apply Finset.sum_congr rfl; intro q _; ring
    · have := prod u (fun D => v D * Y D) w
      rw [u1, vy, w1] at this
      rw [← one_mul P.y, ← mul_one (1 * P.y), ← this]
      apply Finset.sum_congr rfl; intro q _; ring
    · have := prod u v (fun D => w D * Z D)
      rw [u1, v1, wz] at this
      rw [← one_mul P.z, ← one_mul (1 : K), ← this]
      apply Finset.sum_congr rfl; intro q _; ring
  refine hull_mono ?_ (hull_of_weights (List.nodup_dedup _) hSB hW)
  intro x hx
  obtain ⟨q, hq, rfl⟩ := List.mem_map.1 hx
  obtain ⟨m1, m2⟩ := (hS q).1 hq
  obtain ⟨q1, q2, q3⟩ := (hL q).1 m1
  refine List.mem_map.2 ⟨no q, List.mem_filter.2 ⟨List.mem_map_of_mem m1, by simpa using ⟨_, _, _, m2, rfl⟩⟩, ?_⟩
  exact hpts q (hX.lt _ _ p1 q1) (hY.lt _ _ p2 q2) (hZ.lt _ _ p3 q3)

/-! ## chains of a plane lattice -/

/-- Any two of the nodes are one below the other. -/
def IsChain2 (L : List (Nat × Nat)) : Prop := ∀ p ∈ L, ∀ q ∈ L, (p.1 ≤ q.1 ∧ p.2 ≤ q.2) ∨ (q.1 ≤ p.1 ∧ q.2 ≤ p.2)

theorem chain_min {L : List (Nat × Nat)} (hL : IsChain2 L) {B : Finset (Nat × Nat)} {G : Nat × Nat → K} (h0 : ∀ q, 0 ≤ G q)
    (hG : ∀ q, q ∉ L → G q = 0) (a b : Nat) :
    ∑ q ∈ B, G q * (if a ≤ q.1 ∧ b ≤ q.2 then 1 else 0) =
      min (∑ q ∈ B, G q * (if a ≤ q.1 then 1 else 0)) (∑ q ∈ B, G q * (if b ≤ q.2 then 1 else 0)) := by
  have le1 : ∑ q ∈ B, G q * (if a ≤ q.1 ∧ b ≤ q.2 then 1 else 0) ≤ ∑ q ∈ B, G q * (if a ≤ q.1 then 1 else 0) := by
    apply Finset.sum_le_sum
    intro q _
    apply mul_le_mul_of_nonneg_left _ (h0 q)
    by_cases e : a ≤ q.1 <;> by_cases e' : b ≤ q.2 <;> simp [e, e']
  have le2 : ∑ q ∈ B, G q * (if a ≤ q.1 ∧ b ≤ q.2 then 1 else 0) ≤ ∑ q ∈ B, G q * (if b ≤ q.2 then 1 else 0) := by
    apply Finset.sum_le_sum
    intro q _
    apply mul_le_mul_of_nonneg_left _ (h0 q)
    by_cases e : a ≤ q.1 <;> by_cases e' : b ≤ q.2 <;> simp [e, e']
  by_cases hc : ∀ q ∈ L, a ≤ q.1 → b ≤ q.2
  · have e : ∑ q ∈ B, G q * (if a ≤ q.1 ∧ b ≤ q.2 then 1 else 0) = ∑ q ∈ B, G q * (if a ≤ q.1 then 1 else 0) := by
      apply Finset.sum_congr rfl
      intro q _
      by_cases hq : q ∈ L
      · by_cases h1 : a ≤ q.1
        · simp [h1, hc q hq h1]
        · simp [h1]
      · rw [hG q hq, zero_mul, zero_mul]
    rw [min_eq_left (by rw [← e]; exact le2), e]
  · push Not at hc
    obtain ⟨q0, hq0, h1, h2⟩ := hc
    have e : ∑ q ∈ B, G q * (if a ≤ q.1 ∧ b ≤ q.2 then 1 else 0) = ∑ q ∈ B, G q * (if b ≤ q.2 then 1 else 0) := by
      apply Finset.sum_congr rfl
      intro q _
      by_cases hq : q ∈ L
      · by_cases h3 : b ≤ q.2
        · have : a ≤ q.1 := by
            rcases hL q hq q0 hq0 with h | h <;> omega
          simp [h3, this]
        · simp [h3]
      · rw [hG q hq, zero_mul, zero_mul]
    rw [min_eq_right (by rw [← e]; exact le1), e]

/-- The weight at and above the node `a`, for a point at `x` of an axis with nodes at `X`. -/
def aboveW (X : Nat → K) (n a : Nat) (x : K) : K :=
  if a = 0 then 1 else if n < a then 0 else if x ≤ X (a - 1) then 0 else if X a ≤ x then 1 else (x - X (a - 1)) / (X a - X (a - 1))

/-- Weights in one interval of an axis are those of `aboveW`. -/
theorem above_eq {ι : Type} {X : Nat → K} {n : Nat} (hX : ∀ D, D < n → X D < X (D + 1)) {i : Nat} (hi : i < n) {B : Finset ι} {f : ι → Nat}
    {G : ι → K} (h0 : ∀ q, 0 ≤ G q) (hs : ∀ q, G q ≠ 0 → i ≤ f q ∧ f q ≤ i + 1) (h1 : ∑ q ∈ B, G q = 1) {x : K}
    (hx : ∑ q ∈ B, G q * X (f q) = x) (a : Nat) : ∑ q ∈ B, G q * (if a ≤ f q then 1 else 0) = aboveW X n a x := by
  have hd := hX i hi
  set s := ∑ q ∈ B, G q * (if i + 1 ≤ f q then 1 else 0) with hsdef
  have s0 : 0 ≤ s := Finset.sum_nonneg fun q _ => mul_nonneg (h0 q) (by split <;> simp)
  have s1 : s ≤ 1 := by
    rw [← h1]
    apply Finset.sum_le_sum
    intro q _
    by_cases e : i + 1 ≤ f q
    · simp [e]
    · simpa [e] using h0 q
  have hxs : x = X i + s * (X (i + 1) - X i) := by
    have : ∑ q ∈ B, G q * X (f q) = ∑ q ∈ B, (G q * X i + (G q * (if i + 1 ≤ f q then 1 else 0)) * (X (i + 1) - X i)) := by
      apply Finset.sum_congr rfl
      intro q _
      by_cases e : G q = 0
      · rw [e]; ring
      · obtain ⟨e1, e2⟩ := hs q e
        rcases Nat.lt_or_ge (f q) (i + 1) with e3 | e3
        · rw [if_neg (by omega), show f q = i by omega]; ring
        · rw [if_pos e3, show f q = i + 1 by omega]; ring
    rw [← hx, this, Finset.sum_add_distrib, ← Finset.sum_mul, ← Finset.sum_mul, h1, ← hsdef, one_mul]
  have hlo : X i ≤ x := by rw [hxs]; nlinarith
  have hhi : x ≤ X (i + 1) := by rw [hxs]; nlinarith
  unfold aboveW
  rcases Nat.lt_trichotomy a (i + 1) with ha | ha | ha
  · have e : ∑ q ∈ B, G q * (if a ≤ f q then 1 else 0) = 1 := by
      refine Eq.trans (Finset.sum_congr rfl fun q _ => ?_) h1
      by_cases e : G q = 0
      · rw [e]; ring
      · rw [if_pos (by have := hs q e; omega), mul_one]
    rw [e]
    rcases Nat.eq_zero_or_pos a with rfl | hp
    · simp
    · have l1 : X (a - 1) < X a := mono_lt hX (by omega) (by omega)
      have l2 : X a ≤ X i := mono_le hX (by omega) (by omega)
      rw [if_neg (by omega), if_neg (by omega), if_neg (by linarith), if_pos (by linarith)]
  · subst ha
    rw [← hsdef, if_neg (by omega), if_neg (by omega), Nat.add_sub_cancel]
    have hdd : X (i + 1) - X i ≠ 0 := (sub_pos.2 hd).ne'
    split
    · rename_i h
      have : s * (X (i + 1) - X i) = 0 := by linarith
      rcases mul_eq_zero.1 this with h' | h'
      · exact h'
      · exact absurd h' hdd
    · split
      · rename_i _ h
        have : (1 - s) * (X (i + 1) - X i) = 0 := by linarith
        rcases mul_eq_zero.1 this with h' | h'
        · linarith
        · exact absurd h' hdd
      · rw [eq_div_iff hdd]; linarith
  · have e : ∑ q ∈ B, G q * (if a ≤ f q then 1 else 0) = 0 := by
      apply Finset.sum_eq_zero
      intro q _
      by_cases e : G q = 0
      · rw [e]; ring
      · rw [if_neg (by have := hs q e; omega), mul_zero]
    rw [e]
    rw [if_neg (by omega)]
    split
    · rfl
    · have : X (i + 1) ≤ X (a - 1) := mono_le hX (by omega) (by omega)
      rw [if_pos (by linarith)]

/-- Weights on chains of two cells of a lattice, with the same point, are the same. -/
theorem chain_unique {X Y : Nat → K} {a b : Nat} (hX : ∀ D, D < a → X D < X (D + 1)) (hY : ∀ D, D < b → Y D < Y (D + 1))
    {p p' : Nat × Nat} (hp : p.1 < a ∧ p.2 < b) (hp' : p'.1 < a ∧ p'.2 < b) {L L' : List (Nat × Nat)}
    (hL : ∀ q ∈ L, (p.1 ≤ q.1 ∧ q.1 ≤ p.1 + 1) ∧ (p.2 ≤ q.2 ∧ q.2 ≤ p.2 + 1))
    (hL' : ∀ q ∈ L', (p'.1 ≤ q.1 ∧ q.1 ≤ p'.1 + 1) ∧ (p'.2 ≤ q.2 ∧ q.2 ≤ p'.2 + 1)) (c : IsChain2 L) (c' : IsChain2 L')
    {P : V3 K} {G G' : Nat × Nat → K}
    (hG : HullWeights (fun q : Nat × Nat => (⟨X q.1, Y q.2, 0⟩ : V3 K)) (Finset.range (a + 1) ×ˢ Finset.range (b + 1)) L P G)
    (hG' : HullWeights (fun q : Nat × Nat => (⟨X q.1, Y q.2, 0⟩ : V3 K)) (Finset.range (a + 1) ×ˢ Finset.range (b + 1)) L' P G') : G = G' := by
  have mem : ∀ {L : List (Nat × Nat)} {G : Nat × Nat → K}, (∀ q, q ∉ L → G q = 0) → ∀ q, G q ≠ 0 → q ∈ L := by
    intro L G h q hq
    by_contra hc
    exact hq (h q hc)
  have joint : ∀ α β, ∑ q ∈ Finset.range (a + 1) ×ˢ Finset.range (b + 1), G q * (if α ≤ q.1 ∧ β ≤ q.2 then 1 else 0) =
      ∑ q ∈ Finset.range (a + 1) ×ˢ Finset.range (b + 1), G' q * (if α ≤ q.1 ∧ β ≤ q.2 then 1 else 0) := by
    intro α β
    rw [chain_min c hG.nonneg hG.supp, chain_min c' hG'.nonneg hG'.supp,
      above_eq hX hp.1 hG.nonneg (fun q h => (hL q (mem hG.supp q h)).1) hG.one hG.x,
      above_eq hX hp'.1 hG'.nonneg (fun q h => (hL' q (mem hG'.supp q h)).1) hG'.one hG'.x,
      above_eq hY hp.2 hG.nonneg (fun q h => (hL q (mem hG.supp q h)).2) hG.one hG.y,
      above_eq hY hp'.2 hG'.nonneg (fun q h => (hL' q (mem hG'.supp q h)).2) hG'.one hG'.y]
  have single : ∀ (G : Nat × Nat → K) (r : Nat × Nat), r ∈ Finset.range (a + 1) ×ˢ Finset.range (b + 1) →
      G r = ∑ q ∈ Finset.range (a + 1) ×ˢ Finset.range (b + 1), G q * (if r.1 ≤ q.1 ∧ r.2 ≤ q.2 then 1 else 0)
        - ∑ q ∈ Finset.range (a + 1) ×ˢ Finset.range (b + 1), G q * (if r.1 + 1 ≤ q.1 ∧ r.2 ≤ q.2 then 1 else 0)
        - ∑ q ∈ Finset.range (a + 1) ×ˢ Finset.range (b + 1), G q * (if r.1 ≤ q.1 ∧ r.2 + 1 ≤ q.2 then 1 else 0)
        + ∑ q ∈ Finset.range (a + 1) ×ˢ Finset.range (b + 1), G q * (if r.1 + 1 ≤ q.1 ∧ r.2 + 1 ≤ q.2 then 1 else 0) := by
    intro G r hr
    rw [← Finset.sum_sub_distrib, ← Finset.sum_sub_distrib, ← Finset.sum_add_distrib, Finset.sum_eq_single r]
    · simp
    · intro q _ hq
      rcases Nat.lt_trichotomy q.1 r.1 with h1 | h1 | h1
      · rw [if_neg (by omega), if_neg (by omega), if_neg (by omega), if_neg (by omega)]; ring
      · have h2 : q.2 ≠ r.2 := fun h => hq (Prod.ext h1 h)
        rcases Nat.lt_or_ge q.2 r.2 with h3 | h3
        · rw [if_neg (by omega), if_neg (by omega), if_neg (by omega), if_neg (by omega)]; ring
        · rw [if_pos (by omega), if_neg (by omega), if_pos (by omega), if_neg (by omega)]; ring
      · rcases Nat.lt_trichotomy q.2 r.2 with h3 | h3 | h3
        · rw [if_neg (by omega), if_neg (by omega), if_neg (by omega), if_neg (by omega)]; ring
        · rw [if_pos (by omega), if_pos (by omega), if_neg (by omega), if_neg (by omega)]; ring
        · rw [if_pos (by omega), if_pos (by omega), if_pos (by omega), if_pos (by omega)]; ring
    · intro h; exact absurd hr h
  funext r
  by_cases hr : r ∈ Finset.range (a + 1) ×ˢ Finset.range (b + 1)
  · rw [single G r hr, single G' r hr, joint, joint, joint, joint]
  · rw [hG.supp r, hG'.supp r]
    · intro h
      have := hL' r h
      simp only [Finset.mem_product, Finset.mem_range] at hr; omega
    · intro h
      have := hL r h
      simp only [Finset.mem_product, Finset.mem_range] at hr; omega

/-- Cells that are chains in cells of a lattice fit together. -/
theorem fit_chains {X Y : Nat → K} {a b : Nat} (hX : ∀ D, D < a → X D < X (D + 1)) (hY : ∀ D, D < b → Y D < Y (D + 1))
    {pts : Nat → V3 K} {no : Nat × Nat → Nat} (hpts : ∀ q : Nat × Nat, q.1 ≤ a → q.2 ≤ b → pts (no q) = ⟨X q.1, Y q.2, 0⟩) {T : Topo}
    (hT : ∀ r ∈ T, ∃ p : Nat × Nat, (p.1 < a ∧ p.2 < b) ∧ ∃ L : List (Nat × Nat), r = L.map no ∧ L.Nodup ∧ IsChain2 L ∧
      ∀ q ∈ L, (p.1 ≤ q.1 ∧ q.1 ≤ p.1 + 1) ∧ (p.2 ≤ q.2 ∧ q.2 ≤ p.2 + 1)) : FaceToFace pts T := by
  intro r hr r' hr' P hP hP'
  obtain ⟨p, hp, L, rfl, hn, c, hL⟩ := hT r hr
  obtain ⟨p', hp', L', rfl, hn', c', hL'⟩ := hT r' hr'
  have toPos : ∀ {p : Nat × Nat} {L : List (Nat × Nat)}, p.1 < a ∧ p.2 < b →
      (∀ q ∈ L, (p.1 ≤ q.1 ∧ q.1 ≤ p.1 + 1) ∧ (p.2 ≤ q.2 ∧ q.2 ≤ p.2 + 1)) →
      (L.map no).map pts = L.map fun q => (⟨X q.1, Y q.2, 0⟩ : V3 K) := by
    intro p L hp hL
    rw [List.map_map]
    apply List.map_congr_left
    intro q hq
    have := hL q hq
    exact hpts q (by omega) (by omega)
  have inB : ∀ {p : Nat × Nat} {L : List (Nat × Nat)}, p.1 < a ∧ p.2 < b →
      (∀ q ∈ L, (p.1 ≤ q.1 ∧ q.1 ≤ p.1 + 1) ∧ (p.2 ≤ q.2 ∧ q.2 ≤ p.2 + 1)) →
      ∀ q ∈ L, q ∈ Finset.range (a + 1) ×ˢ Finset.range (b + 1) := by
    intro p L hp hL q hq
    have := hL q hq
    simp only [Finset.mem_product, Finset.mem_range]; omega
  rw [toPos hp hL] at hP
  rw [toPos hp' hL'] at hP'
  obtain ⟨G, hG⟩ := weights_of_hull hn (inB hp hL) hP
  obtain ⟨G', hG'⟩ := weights_of_hull hn' (inB hp' hL') hP'
  have e := chain_unique hX hY hp hp' hL hL' c c' hG hG'
  have hW : HullWeights (fun q : Nat × Nat => (⟨X q.1, Y q.2, 0⟩ : V3 K)) (Finset.range (a + 1) ×ˢ Finset.range (b + 1))
      (L.filter (· ∈ L')) P G := by
    refine ⟨hG.nonneg, ?_, hG.one, hG.x, hG.y, hG.z⟩
    intro q hq
    by_cases h1 : q ∈ L
    · have h2 : q ∉ L' := fun h2 => hq (List.mem_filter.2 ⟨h1, by simpa using h2⟩)
      rw [e]; exact hG'.supp q h2
    · exact hG.supp q h1
  refine hull_mono ?_ (hull_of_weights (hn.filter _) (fun q hq => inB hp hL q (List.mem_filter.1 hq).1) hW)
  intro x hx
  obtain ⟨q, hq, rfl⟩ := List.mem_map.1 hx
  obtain ⟨m1, m2⟩ := List.mem_filter.1 hq
  have m2 : q ∈ L' := by simpa using m2
  refine List.mem_map.2 ⟨no q, List.mem_filter.2 ⟨List.mem_map_of_mem m1, by simpa using ⟨_, _, m2, rfl⟩⟩, ?_⟩
  have := hL q m1
  exact hpts q (by omega) (by omega)

/-! ## grids -/

/-- An axis with the middles of the intervals. -/
def halfAxis (a : Axis K) : Axis K := ⟨2 * a.n, 2, fun D => a.val D⟩

theorem halves_half {a : Axis K} (h : a.N = 3) : Halves a (halfAxis a) := by
  refine ⟨h, rfl, rfl, fun x _ => ?_⟩
  conv_rhs => simp [Axis.val, Axis.pos, halfAxis, Nat.mod_one]
  simp [Axis.val, Axis.pos]

theorem half_inc {a : Axis K} (hN : a.N = 3) (h : a.Inc) : (halfAxis a).Inc := by
  intro D hD
  simp only [halfAxis] at hD ⊢
  simp only [Axis.val, Axis.pos, hN]
  have := h (D / 2) (by omega)
  rcases Nat.mod_two_eq_zero_or_one D with e | e
  · rw [show (D + 1) / (3 - 1) = D / 2 by omega, show (D + 1) % (3 - 1) = 1 by omega, show D % (3 - 1) = 0 by omega,
      show D / (3 - 1) = D / 2 by omega]
    push_cast
    linarith
  · rw [show (D + 1) / (3 - 1) = D / 2 + 1 by omega, show (D + 1) % (3 - 1) = 0 by omega, show D % (3 - 1) = 1 by omega,
      show D / (3 - 1) = D / 2 by omega]
    push_cast
    linarith

theorem pt3_lat {ax ay az : Axis K} (hx : ax.N = 2) (hy : ay.N = 2) (hz : az.N = 2) {q : Nat × Nat × Nat} (hq : InLat ax.n ay.n az.n q) :
    pt3 (gridCoords [ax, ay, az]) (latNo ay.n az.n q) = ⟨ax.b q.1, ay.b q.2.1, az.b q.2.2⟩ := by
  simp [pt3, List.getD_eq_getElem?_getD, latCoords ax ay az hx hy hz hq]

theorem pt3_lat2 {ax ay : Axis K} (hx : ax.N = 2) (hy : ay.N = 2) {q : Nat × Nat} (hq : InLat2 ax.n ay.n q) :
    pt3 (gridCoords [ax, ay]) (latNo2 ay.n q) = ⟨ax.b q.1, ay.b q.2, 0⟩ := by
  simp [pt3, List.getD_eq_getElem?_getD, latCoords2 ax ay hx hy hq]

theorem mem_latCell {p q : Nat × Nat × Nat} : q ∈ latCell p.1 p.2.1 p.2.2 ↔
    InCell (fun i D => 1 * i ≤ D ∧ D ≤ 1 * i + 1) (fun i D => 1 * i ≤ D ∧ D ≤ 1 * i + 1) (fun i D => 1 * i ≤ D ∧ D ≤ 1 * i + 1) p q := by
  obtain ⟨i, j, k⟩ := p
  obtain ⟨x, y, z⟩ := q
  simp only [latCell, InCell, List.mem_cons, Prod.mk.injEq, List.not_mem_nil, or_false, one_mul]
  omega

theorem mem_dbl {p q : Nat × Nat × Nat} : q ∈ lcH27.map (dbl p) ↔
    InCell (fun i D => 2 * i ≤ D ∧ D ≤ 2 * i + 2) (fun i D => 2 * i ≤ D ∧ D ≤ 2 * i + 2) (fun i D => 2 * i ≤ D ∧ D ≤ 2 * i + 2) p q := by
  constructor
  · intro h
    obtain ⟨v, hv, rfl⟩ := List.mem_map.1 h
    have : off v.x ≤ 2 ∧ off v.y ≤ 2 ∧ off v.z ≤ 2 := by
      clear h; revert v; decide +kernel
    simp only [InCell, dbl]; omega
  · rintro ⟨h1, h2, h3⟩
    have key : ∀ a ≤ 2, ∀ b ≤ 2, ∀ c ≤ 2, ∃ v ∈ lcH27, off v.x = a ∧ off v.y = b ∧ off v.z = c := by decide +kernel
    obtain ⟨v, hv, e1, e2, e3⟩ := key (q.1 - 2 * p.1) (by omega) (q.2.1 - 2 * p.2.1) (by omega) (q.2.2 - 2 * p.2.2) (by omega)
    refine List.mem_map.2 ⟨v, hv, ?_⟩
    rw [dbl, e1, e2, e3]
    exact Prod.ext (by dsimp only; omega) (Prod.ext (by dsimp only; omega) (by dsimp only; omega))

theorem fit_hex {ax ay az : Axis K} (hx : ax.N = 2) (hy : ay.N = 2) (hz : az.N = 2) (ix : ax.Inc) (iy : ay.Inc) (iz : az.Inc) {T : List (List Int)}
    (h : transformTopology (addStart 0 (gridTopo [ax, ay, az])) [pathH8] pathH8.length 0 = some T) :
    FaceToFace (pt3 (gridCoords [ax, ay, az])) (asTopo T) := by
  rw [hexTopo ax ay az hx hy hz h]
  refine fit_product (axisFit_stride (s := 1) le_rfl (n := ax.n) (X := ax.b) fun D hD => ix D (by omega))
    (axisFit_stride (s := 1) le_rfl (n := ay.n) (X := ay.b) fun D hD => iy D (by omega))
    (axisFit_stride (s := 1) le_rfl (n := az.n) (X := az.b) fun D hD => iz D (by omega)) (no := latNo ay.n az.n) ?_ ?_
  · intro q h1 h2 h3
    exact pt3_lat hx hy hz (by simp only [InLat]; omega)
  · intro r hr
    obtain ⟨p, hp, rfl⟩ := List.mem_map.1 hr
    exact ⟨p, mem_latCells.1 hp, _, rfl, fun q => mem_latCell⟩

theorem fit_hex27 {ax ay az : Axis K} (hx : ax.N = 3) (hy : ay.N = 3) (hz : az.N = 3) (ix : ax.Inc) (iy : ay.Inc) (iz : az.Inc) {T : List (List Int)}
    (h : transformTopology (addStart 0 (gridTopo [ax, ay, az])) [pathH27] pathH27.length 0 = some T) :
    FaceToFace (pt3 (gridCoords [ax, ay, az])) (asTopo T) := by
  rw [hexTopo27 ax ay az hx hy hz h, halves_coords (halves_half hx) (halves_half hy) (halves_half hz)]
  refine fit_product (axisFit_stride (s := 2) (by omega) (n := ax.n) (X := (halfAxis ax).b) (half_inc hx ix))
    (axisFit_stride (s := 2) (by omega) (n := ay.n) (X := (halfAxis ay).b) (half_inc hy iy))
    (axisFit_stride (s := 2) (by omega) (n := az.n) (X := (halfAxis az).b) (half_inc hz iz)) (no := latNo (2 * ay.n) (2 * az.n)) ?_ ?_
  · intro q h1 h2 h3
    exact pt3_lat (ax := halfAxis ax) (ay := halfAxis ay) (az := halfAxis az) rfl rfl rfl (by simp only [InLat, halfAxis]; omega)
  · intro r hr
    obtain ⟨p, hp, rfl⟩ := List.mem_map.1 hr
    exact ⟨p, mem_latCells.1 hp, lcH27.map (dbl p), by rw [List.map_map]; rfl, fun q => mem_dbl⟩

theorem fit_quad {ax ay : Axis K} (hx : ax.N = 2) (hy : ay.N = 2) (ix : ax.Inc) (iy : ay.Inc) {T : List (List Int)}
    (h : transformTopology (addStart 0 (gridTopo [ax, ay])) [pathQ4] pathQ4.length 0 = some T) :
    FaceToFace (pt3 (gridCoords [ax, ay])) (asTopo T) := by
  rw [quadTopo ax ay hx hy h]
  refine fit_product (axisFit_stride (s := 1) le_rfl (n := ax.n) (X := ax.b) fun D hD => ix D (by omega))
    (axisFit_stride (s := 1) le_rfl (n := ay.n) (X := ay.b) fun D hD => iy D (by omega)) axisFit_one
    (no := fun q => latNo2 ay.n (q.1, q.2.1)) ?_ ?_
  · intro q h1 h2 h3
    exact pt3_lat2 (q := (q.1, q.2.1)) hx hy (by simp only [InLat2]; omega)
  · intro r hr
    obtain ⟨p, hp, rfl⟩ := List.mem_map.1 hr
    refine ⟨(p.1, p.2, 0), ⟨(mem_latCells2.1 hp).1, (mem_latCells2.1 hp).2, Nat.zero_lt_one⟩, (latCell2 p.1 p.2).map fun q => (q.1, q.2, 0), ?_, ?_⟩
    · rw [List.map_map]; rfl
    · rintro ⟨x, y, z⟩
      simp only [latCell2, InCell, List.map_cons, List.map_nil, List.mem_cons, Prod.mk.injEq, List.not_mem_nil, or_false, one_mul]
      omega

theorem fit_quad9 {ax ay : Axis K} (hx : ax.N = 3) (hy : ay.N = 3) (ix : ax.Inc) (iy : ay.Inc) {T : List (List Int)}
    (h : transformTopology (addStart 0 (gridTopo [ax, ay])) [pathQ9] pathQ9.length 0 = some T) :
    FaceToFace (pt3 (gridCoords [ax, ay])) (asTopo T) := by
  rw [quadTopo9 ax ay hx hy h, halves_coords2 (halves_half hx) (halves_half hy)]
  refine fit_product (axisFit_stride (s := 2) (by omega) (n := ax.n) (X := (halfAxis ax).b) (half_inc hx ix))
    (axisFit_stride (s := 2) (by omega) (n := ay.n) (X := (halfAxis ay).b) (half_inc hy iy)) axisFit_one
    (no := fun q => latNo2 (2 * ay.n) (q.1, q.2.1)) ?_ ?_
  · intro q h1 h2 h3
    exact pt3_lat2 (ax := halfAxis ax) (ay := halfAxis ay) (q := (q.1, q.2.1)) rfl rfl (by simp only [InLat2, halfAxis]; omega)
  · intro r hr
    obtain ⟨p, hp, rfl⟩ := List.mem_map.1 hr
    refine ⟨(p.1, p.2, 0), ⟨(mem_latCells2.1 hp).1, (mem_latCells2.1 hp).2, Nat.zero_lt_one⟩, lcQ9.map fun v => ((dbl2 p v).1, (dbl2 p v).2, 0), ?_, ?_⟩
    · rw [List.map_map]; rfl
    · intro q
      constructor
      · intro h
        obtain ⟨v, hv, rfl⟩ := List.mem_map.1 h
        have : off v.x ≤ 2 ∧ off v.y ≤ 2 := by
          clear h; revert v; decide +kernel
        simp only [InCell, dbl2, and_true]; omega
      · rintro ⟨h1, h2, h3⟩
        have key : ∀ a ≤ 2, ∀ b ≤ 2, ∃ v ∈ lcQ9, off v.x = a ∧ off v.y = b := by decide +kernel
        obtain ⟨v, hv, e1, e2⟩ := key (q.1 - 2 * p.1) (by omega) (q.2.1 - 2 * p.2) (by dsimp only at h2; omega)
        refine List.mem_map.2 ⟨v, hv, ?_⟩
        rw [dbl2, e1, e2]
        dsimp only at h1 h2 h3
        exact Prod.ext (by dsimp only; omega) (Prod.ext (by dsimp only; omega) h3.symm)

/-- The two triangles of a cell of a plane lattice. -/
def latTris (p : Nat × Nat) : List (List (Nat × Nat)) :=
  [[(p.1, p.2), (p.1 + 1, p.2), (p.1 + 1, p.2 + 1)], [(p.1, p.2), (p.1 + 1, p.2 + 1), (p.1, p.2 + 1)]]

theorem latTris_chain {p : Nat × Nat} {L : List (Nat × Nat)} (h : L ∈ latTris p) : L.Nodup ∧ IsChain2 L ∧
    ∀ q ∈ L, (p.1 ≤ q.1 ∧ q.1 ≤ p.1 + 1) ∧ (p.2 ≤ q.2 ∧ q.2 ≤ p.2 + 1) := by
  simp only [latTris, List.mem_cons, List.not_mem_nil, or_false] at h
  rcases h with rfl | rfl
  · refine ⟨by obtain ⟨i, j⟩ := p; simp, ?_, ?_⟩
    · simp only [IsChain2, List.forall_mem_cons, List.not_mem_nil, false_implies, implies_true, and_true]; omega
    · simp only [List.forall_mem_cons, List.not_mem_nil, false_implies, implies_true, and_true]; omega
  · refine ⟨by obtain ⟨i, j⟩ := p; simp, ?_, ?_⟩
    · simp only [IsChain2, List.forall_mem_cons, List.not_mem_nil, false_implies, implies_true, and_true]; omega
    · simp only [List.forall_mem_cons, List.not_mem_nil, false_implies, implies_true, and_true]; omega

theorem transformed_tris (l : List (Nat × Nat)) (no : Nat × Nat → Nat) :
    transformed (l.map fun p => (latCell2 p.1 p.2).map no) pathQ4T3 0 = (l.flatMap latTris).map (List.map no) := by
  rw [transformed, List.flatMap_map, List.map_flatMap]
  congr 1

theorem tris_of_quads {l : List (Nat × Nat)} {no : Nat × Nat → Nat} {R : Topo}
    (h : transformTopology (l.map fun p => (latCell2 p.1 p.2).map no) pathQ4T3 3 0 = some R) : R = (l.flatMap latTris).map (List.map no) := by
  rw [transformTopology_eq (pathOK_of_width (w := 4) (by
    intro r hr
    obtain ⟨p, _, rfl⟩ := List.mem_map.1 hr
    rfl) (by decide)), transformed_tris] at h
  exact (Option.some.inj h).symm

theorem trisQ4 {ax ay : Axis K} (hx : ax.N = 2) (hy : ay.N = 2) {T : List (List Int)}
    (h : transformTopology (addStart 0 (gridTopo [ax, ay])) [pathQ4] pathQ4.length 0 = some T) {R : Topo} (hR : toTriangles .Q4 (asTopo T) = some R) :
    R = ((latCells2 ax.n ay.n).flatMap latTris).map (List.map (latNo2 ay.n)) := by
  rw [quadTopo ax ay hx hy h] at hR
  exact tris_of_quads hR

theorem trisQ9 {ax ay : Axis K} (hx : ax.N = 3) (hy : ay.N = 3) {T : List (List Int)}
    (h : transformTopology (addStart 0 (gridTopo [ax, ay])) [pathQ9] pathQ9.length 0 = some T) {R : Topo} (hR : toTriangles .Q9 (asTopo T) = some R) :
    R = (((latCells2 ax.n ay.n).flatMap quarters).flatMap latTris).map (List.map (latNo2 (2 * ay.n))) := by
  rw [quadTopo9 ax ay hx hy h, toTriangles, transformTopology_eq (pathOK_of_width (w := 9) (by
    intro r hr
    obtain ⟨p, _, rfl⟩ := List.mem_map.1 hr
    rfl) (by decide)), transformed_lat9, Option.bind_some] at hR
  exact tris_of_quads hR

theorem fit_latTris {ax ay : Axis K} (hx : ax.N = 2) (hy : ay.N = 2) (ix : ax.Inc) (iy : ay.Inc) {l : List (Nat × Nat)}
    (hl : ∀ p ∈ l, p.1 < ax.n ∧ p.2 < ay.n) :
    FaceToFace (pt3 (gridCoords [ax, ay])) ((l.flatMap latTris).map (List.map (latNo2 ay.n))) := by
  refine fit_chains (X := ax.b) (Y := ay.b) (a := ax.n) (b := ay.n) ix iy (no := latNo2 ay.n) ?_ ?_
  · intro q h1 h2
    exact pt3_lat2 hx hy ⟨h1, h2⟩
  · intro r hr
    obtain ⟨L, hL, rfl⟩ := List.mem_map.1 hr
    obtain ⟨p, hp, hL⟩ := List.mem_flatMap.1 hL
    exact ⟨p, hl p hp, L, rfl, latTris_chain hL⟩

theorem fit_tris {ax ay : Axis K} (hx : ax.N = 2) (hy : ay.N = 2) (ix : ax.Inc) (iy : ay.Inc) {T : List (List Int)}
    (h : transformTopology (addStart 0 (gridTopo [ax, ay])) [pathQ4] pathQ4.length 0 = some T) {R : Topo} (hR : toTriangles .Q4 (asTopo T) = some R) :
    FaceToFace (pt3 (gridCoords [ax, ay])) R := by
  rw [trisQ4 hx hy h hR]
  exact fit_latTris hx hy ix iy fun p hp => mem_latCells2.1 hp

theorem fit_tris9 {ax ay : Axis K} (hx : ax.N = 3) (hy : ay.N = 3) (ix : ax.Inc) (iy : ay.Inc) {T : List (List Int)}
    (h : transformTopology (addStart 0 (gridTopo [ax, ay])) [pathQ9] pathQ9.length 0 = some T) {R : Topo} (hR : toTriangles .Q9 (asTopo T) = some R) :
    FaceToFace (pt3 (gridCoords [ax, ay])) R := by
  rw [trisQ9 hx hy h hR, halves_coords2 (halves_half hx) (halves_half hy)]
  exact fit_latTris (ax := halfAxis ax) (ay := halfAxis ay) rfl rfl (half_inc hx ix) (half_inc hy iy) fun p hp =>
    mem_latCells2.1 ((quarters_perm _ _).mem_iff.1 hp)

/-! ## the grids of the library -/

/-- **C129** the hexahedra of `gridH8` fit together. -/
theorem C129_H8 {lX lY lZ : K} (hX : 0 < lX) (hY : 0 < lY) (hZ : 0 < lZ) {nx ny nz : Nat} (s0 s1 s2 : K) (h : 1 ≤ nx ∧ 1 ≤ ny ∧ 1 ≤ nz) :
    ∃ C T, gridH8 (args3 lX lY lZ nx ny nz s0 s1 s2 0) = some (C, T) ∧ FaceToFace (pt3 C) (asTopo T) := by
  obtain ⟨T, h1, _⟩ := vtk3_closed 2 (by omega) tabH8 (uniAxis lX nx 2 s0) (uniAxis lY ny 2 s1) (uniAxis lZ nz 2 s2) rfl rfl rfl 0
  exact ⟨_, T, gridNamed_uni3 2 (by omega) lX lY lZ s0 s1 s2 h h1,
    fit_hex rfl rfl rfl (uniAxis_inc hX h.1) (uniAxis_inc hY h.2.1) (uniAxis_inc hZ h.2.2) h1⟩

/-- **C129** the same with bins in increasing order. -/
theorem C129_H8_bins {bx bY bz : List K} (hx : bx.Pairwise (· < ·)) (hy : bY.Pairwise (· < ·)) (hz : bz.Pairwise (· < ·)) (s0 s1 s2 : K)
    (h : 2 ≤ bx.length ∧ 2 ≤ bY.length ∧ 2 ≤ bz.length) :
    ∃ C T, gridH8 (argsB3 bx bY bz s0 s1 s2 0) = some (C, T) ∧ FaceToFace (pt3 C) (asTopo T) := by
  obtain ⟨T, h1, _⟩ := vtk3_closed 2 (by omega) tabH8 (binAxis bx 2 s0) (binAxis bY 2 s1) (binAxis bz 2 s2) rfl rfl rfl 0
  exact ⟨_, T, gridNamed_bins3 2 (by omega) s0 s1 s2 h h1,
    fit_hex rfl rfl rfl (binAxis_inc hx) (binAxis_inc hy) (binAxis_inc hz) h1⟩

/-- **C129** so do those of `gridH27`, with all of their 27 nodes. -/
theorem C129_H27 {lX lY lZ : K} (hX : 0 < lX) (hY : 0 < lY) (hZ : 0 < lZ) {nx ny nz : Nat} (s0 s1 s2 : K) (h : 1 ≤ nx ∧ 1 ≤ ny ∧ 1 ≤ nz) :
    ∃ C T, gridH27 (args3 lX lY lZ nx ny nz s0 s1 s2 0) = some (C, T) ∧ FaceToFace (pt3 C) (asTopo T) := by
  obtain ⟨T, h1, _⟩ := vtk3_closed 3 (by omega) tabH27 (uniAxis lX nx 3 s0) (uniAxis lY ny 3 s1) (uniAxis lZ nz 3 s2) rfl rfl rfl 0
  exact ⟨_, T, gridNamed_uni3 3 (by omega) lX lY lZ s0 s1 s2 h h1,
    fit_hex27 rfl rfl rfl (uniAxis_inc hX h.1) (uniAxis_inc hY h.2.1) (uniAxis_inc hZ h.2.2) h1⟩

/-- **C129** the same with bins in increasing order. -/
theorem C129_H27_bins {bx bY bz : List K} (hx : bx.Pairwise (· < ·)) (hy : bY.Pairwise (· < ·)) (hz : bz.Pairwise (· < ·)) (s0 s1 s2 : K)
    (h : 2 ≤ bx.length ∧ 2 ≤ bY.length ∧ 2 ≤ bz.length) :
    ∃ C T, gridH27 (argsB3 bx bY bz s0 s1 s2 0) = some (C, T) ∧ FaceToFace (pt3 C) (asTopo T) := by
  obtain ⟨T, h1, _⟩ := vtk3_closed 3 (by omega) tabH27 (binAxis bx 3 s0) (binAxis bY 3 s1) (binAxis bz 3 s2) rfl rfl rfl 0
  exact ⟨_, T, gridNamed_bins3 3 (by omega) s0 s1 s2 h h1,
    fit_hex27 rfl rfl rfl (binAxis_inc hx) (binAxis_inc hy) (binAxis_inc hz) h1⟩

/-- **C129** the quadrilaterals of `gridQ4` fit together, and so do the triangles made of them. -/
theorem C129_Q4 {lX lY : K} (hX : 0 < lX) (hY : 0 < lY) {nx ny : Nat} (s0 s1 : K) (h : 1 ≤ nx ∧ 1 ≤ ny) :
    ∃ C T R, gridQ4 (args2 lX lY nx ny s0 s1 0) = some (C, T) ∧ toTriangles .Q4 (asTopo T) = some R ∧
      FaceToFace (pt3 C) (asTopo T) ∧ FaceToFace (pt3 C) R := by
  obtain ⟨T, h1, _⟩ := vtk2_closed 2 (by omega) tabQ4 (uniAxis lX nx 2 s0) (uniAxis lY ny 2 s1) rfl rfl 0
  have e := gridNamed_uni2 2 (by omega) lX lY s0 s1 h h1
  obtain ⟨_, T', R, _, g1, g2, _⟩ := C102_tris hX hY s0 s1 h
  rw [show gridQ4 (args2 lX lY nx ny s0 s1 0) = _ from e, Option.some.injEq, Prod.mk.injEq] at g1
  obtain ⟨rfl, rfl⟩ := g1
  exact ⟨_, T, R, e, g2, fit_quad rfl rfl (uniAxis_inc hX h.1) (uniAxis_inc hY h.2) h1,
    fit_tris rfl rfl (uniAxis_inc hX h.1) (uniAxis_inc hY h.2) h1 g2⟩

/-- **C129** the same with bins in increasing order. -/
theorem C129_Q4_bins {bx bY : List K} (hx : bx.Pairwise (· < ·)) (hy : bY.Pairwise (· < ·)) (s0 s1 : K) (h : 2 ≤ bx.length ∧ 2 ≤ bY.length) :
    ∃ C T R, gridQ4 (argsB2 bx bY s0 s1 0) = some (C, T) ∧ toTriangles .Q4 (asTopo T) = some R ∧
      FaceToFace (pt3 C) (asTopo T) ∧ FaceToFace (pt3 C) R := by
  obtain ⟨T, h1, _⟩ := vtk2_closed 2 (by omega) tabQ4 (binAxis bx 2 s0) (binAxis bY 2 s1) rfl rfl 0
  have e := gridNamed_bins2 2 (by omega) s0 s1 h h1
  obtain ⟨_, T', R, _, g1, g2, _⟩ := C102_tris_bins hx hy s0 s1 h
  rw [show gridQ4 (argsB2 bx bY s0 s1 0) = _ from e, Option.some.injEq, Prod.mk.injEq] at g1
  obtain ⟨rfl, rfl⟩ := g1
  exact ⟨_, T, R, e, g2, fit_quad rfl rfl (binAxis_inc hx) (binAxis_inc hy) h1, fit_tris rfl rfl (binAxis_inc hx) (binAxis_inc hy) h1 g2⟩

/-- **C129** the quadrilaterals of `gridQ9` fit together, and so do the triangles made of them. -/
theorem C129_Q9 {lX lY : K} (hX : 0 < lX) (hY : 0 < lY) {nx ny : Nat} (s0 s1 : K) (h : 1 ≤ nx ∧ 1 ≤ ny) :
    ∃ C T R, gridQ9 (args2 lX lY nx ny s0 s1 0) = some (C, T) ∧ toTriangles .Q9 (asTopo T) = some R ∧
      FaceToFace (pt3 C) (asTopo T) ∧ FaceToFace (pt3 C) R := by
  obtain ⟨T, h1, _⟩ := vtk2_closed 3 (by omega) tabQ9 (uniAxis lX nx 3 s0) (uniAxis lY ny 3 s1) rfl rfl 0
  have e := gridNamed_uni2 3 (by omega) lX lY s0 s1 h h1
  obtain ⟨_, T', R, _, g1, g2, _⟩ := C102_tris9 hX hY s0 s1 h
  rw [show gridQ9 (args2 lX lY nx ny s0 s1 0) = _ from e, Option.some.injEq, Prod.mk.injEq] at g1
  obtain ⟨rfl, rfl⟩ := g1
  exact ⟨_, T, R, e, g2, fit_quad9 rfl rfl (uniAxis_inc hX h.1) (uniAxis_inc hY h.2) h1,
    fit_tris9 rfl rfl (uniAxis_inc hX h.1) (uniAxis_inc hY h.2) h1 g2⟩

/-- **C129** the same with bins in increasing order. -/
theorem C129_Q9_bins {bx bY : List K} (hx : bx.Pairwise (· < ·)) (hy : bY.Pairwise (· < ·)) (s0 s1 : K) (h : 2 ≤ bx.length ∧ 2 ≤ bY.length) :
    ∃ C T R, gridQ9 (argsB2 bx bY s0 s1 0) = some (C, T) ∧ toTriangles .Q9 (asTopo T) = some R ∧
      FaceToFace (pt3 C) (asTopo T) ∧ FaceToFace (pt3 C) R := by
  obtain ⟨T, h1, _⟩ := vtk2_closed 3 (by omega) tabQ9 (binAxis bx 3 s0) (binAxis bY 3 s1) rfl rfl 0
  have e := gridNamed_bins2 3 (by omega) s0 s1 h h1
  obtain ⟨_, T', R, _, g1, g2, _⟩ := C102_tris9_bins hx hy s0 s1 h
  rw [show gridQ9 (argsB2 bx bY s0 s1 0) = _ from e, Option.some.injEq, Prod.mk.injEq] at g1
  obtain ⟨rfl, rfl⟩ := g1
  exact ⟨_, T, R, e, g2, fit_quad9 rfl rfl (binAxis_inc hx) (binAxis_inc hy) h1, fit_tris9 rfl rfl (binAxis_inc hx) (binAxis_inc hy) h1 g2⟩

/-! ## extruded grids -/

/-- `coords[:, :2]`, as pairs. -/
def pairsOf (C : List (List K)) : List (K × K) := C.map fun r => (r.getD 0 0, r.getD 1 0)

/-- `topo[:, :3]`, as triples. -/
def triplesOf (R : Topo) : List (Nat × Nat × Nat) := R.map fun r => (r.getD 0 0, r.getD 1 0, r.getD 2 0)

theorem pairs_lat {ax ay : Axis K} (hx : ax.N = 2) (hy : ay.N = 2) {q : Nat × Nat} (hq : InLat2 ax.n ay.n q) :
    (pairsOf (gridCoords [ax, ay])).getD (latNo2 ay.n q) (0, 0) = (ax.b q.1, ay.b q.2) ∧
      latNo2 ay.n q < (pairsOf (gridCoords [ax, ay])).length := by
  have h := latCoords2 ax ay hx hy hq
  constructor
  · simp [pairsOf, List.getD_eq_getElem?_getD, h]
  · rw [pairsOf, List.length_map]
    exact (List.getElem?_eq_some_iff.1 h).1

theorem triplesOf_latTris {l : List (Nat × Nat)} {no : Nat × Nat → Nat} {t : Nat × Nat × Nat}
    (ht : t ∈ triplesOf ((l.flatMap latTris).map (List.map no))) : ∃ p ∈ l,
      t = (no (p.1, p.2), no (p.1 + 1, p.2), no (p.1 + 1, p.2 + 1)) ∨ t = (no (p.1, p.2), no (p.1 + 1, p.2 + 1), no (p.1, p.2 + 1)) := by
  obtain ⟨r, hr, rfl⟩ := List.mem_map.1 ht
  obtain ⟨L, hL, rfl⟩ := List.mem_map.1 hr
  obtain ⟨p, hp, hL⟩ := List.mem_flatMap.1 hL
  refine ⟨p, hp, ?_⟩
  simp only [latTris, List.mem_cons, List.not_mem_nil, or_false] at hL
  rcases hL with rfl | rfl
  · exact .inl rfl
  · exact .inr rfl

theorem triRow_latTris (l : List (Nat × Nat)) (no : Nat × Nat → Nat) :
    (triplesOf ((l.flatMap latTris).map (List.map no))).map triRow = (l.flatMap latTris).map (List.map no) := by
  rw [triplesOf, List.map_map, List.map_map]
  apply List.map_congr_left
  intro L hL
  obtain ⟨p, hp, hL⟩ := List.mem_flatMap.1 hL
  simp only [latTris, List.mem_cons, List.not_mem_nil, or_false] at hL
  rcases hL with rfl | rfl <;> rfl

theorem plane_latTris {ax ay : Axis K} (hx : ax.N = 2) (hy : ay.N = 2) (ix : ax.Inc) (iy : ay.Inc) {l : List (Nat × Nat)}
    (hl : ∀ p ∈ l, p.1 < ax.n ∧ p.2 < ay.n) :
    PlaneFit (pairsOf (gridCoords [ax, ay])) (triplesOf ((l.flatMap latTris).map (List.map (latNo2 ay.n)))) := by
  refine ⟨?_, ?_, ?_⟩
  · intro t ht
    obtain ⟨p, hp, h⟩ := triplesOf_latTris ht
    have := hl p hp
    rcases h with rfl | rfl <;>
      exact ⟨(pairs_lat hx hy (by simp only [InLat2]; omega)).2, (pairs_lat hx hy (by simp only [InLat2]; omega)).2,
        (pairs_lat hx hy (by simp only [InLat2]; omega)).2⟩
  · intro t ht
    obtain ⟨p, hp, h⟩ := triplesOf_latTris ht
    obtain ⟨h1, h2⟩ := hl p hp
    have dx : 0 < ax.b (p.1 + 1) - ax.b p.1 := sub_pos.2 (ix _ h1)
    have dy : 0 < ay.b (p.2 + 1) - ay.b p.2 := sub_pos.2 (iy _ h2)
    have a1 := (pairs_lat hx hy (q := (p.1, p.2)) (by simp only [InLat2]; omega)).1
    have a2 := (pairs_lat hx hy (q := (p.1 + 1, p.2)) (by simp only [InLat2]; omega)).1
    have a3 := (pairs_lat hx hy (q := (p.1 + 1, p.2 + 1)) (by simp only [InLat2]; omega)).1
    have a4 := (pairs_lat hx hy (q := (p.1, p.2 + 1)) (by simp only [InLat2]; omega)).1
    rcases h with rfl | rfl
    · simp only [area2D, a1, a2, a3]
      have := mul_pos dx dy
      nlinarith
    · simp only [area2D, a1, a3, a4]
      have := mul_pos dx dy
      nlinarith
  · rw [triRow_latTris]
    refine fit_chains (X := ax.b) (Y := ay.b) (a := ax.n) (b := ay.n) ix iy (no := latNo2 ay.n) ?_ ?_
    · intro q h1 h2
      rw [planePts, (pairs_lat hx hy ⟨h1, h2⟩).1]
    · intro r hr
      obtain ⟨L, hL, rfl⟩ := List.mem_map.1 hr
      obtain ⟨p, hp, hL⟩ := List.mem_flatMap.1 hL
      exact ⟨p, hl p hp, L, rfl, latTris_chain hL⟩

theorem mapM_map_of {α β : Type} {f : α → Option β} {g : α → β} : ∀ {l : List α} {l' : List β}, l.mapM f = some l' →
    (∀ a ∈ l, ∀ b, f a = some b → b = g a) → l' = l.map g := by
  intro l
  induction l with
  | nil => intro l' h _; simpa using h.symm
  | cons a l ih =>
    intro l' h hg
    rw [List.mapM_cons] at h
    cases ha : f a with
    | none => simp [ha] at h
    | some b =>
      cases hl : l.mapM f with
      | none => simp [ha, hl] at h
      | some m =>
        simp only [ha, hl, Option.bind_eq_bind, Option.bind_some, Option.pure_def, Option.some.injEq] at h
        rw [← h, List.map_cons, hg a (by simp) b ha, ih hl fun c hc => hg c (by simp [hc])]

theorem cellPoints_pt3 {C : List (List K)} {R : Topo} {pts : List (List (V3 K))} (h : gridCellPoints C R = some pts) :
    pts = R.map fun r => r.map (pt3 C) := by
  refine mapM_map_of h ?_
  intro r _ s hs
  refine mapM_map_of hs ?_
  intro n _ v hv
  rw [List.getElem?_map] at hv
  cases hc : C[n]? with
  | none => simp [hc] at hv
  | some c =>
    simp only [hc, Option.map_some, Option.some.injEq] at hv
    have e : C.getD n [] = c := by simp [List.getD_eq_getElem?_getD, hc]
    rw [← hv, pt3, e]
    rfl

theorem plane_pt3 {C : List (List K)} (h : ∀ c ∈ C, c.length = 2) : planePts (pairsOf C) = pt3 C := by
  funext n
  simp only [planePts, pairsOf, pt3, List.getD_eq_getElem?_getD, List.getElem?_map]
  cases hc : C[n]? with
  | none => simp
  | some c =>
    have := h c (List.mem_of_getElem? hc)
    simp [this]

theorem two_coords {ax ay : Axis K} : ∀ c ∈ gridCoords [ax, ay], c.length = 2 := by
  intro c hc
  rw [gridCoords, List.map_cons, List.map_cons, List.map_nil, gridL2] at hc
  obtain ⟨p, _, rfl⟩ := List.mem_map.1 hc
  rfl

/-- The triangles of a plane grid cover the rectangle. -/
theorem plane_cover {C : List (List K)} (hC : ∀ c ∈ C, c.length = 2) {R : Topo} (hR : (triplesOf R).map triRow = R) {pts : List (List (V3 K))}
    (h : gridCellPoints C R = some pts) {Q : V3 K → Prop} (ht : TilesRegion Q pts) (p : V3 K) :
    (∃ t ∈ triplesOf R, Hull ((triRow t).map (planePts (pairsOf C))) p) ↔ Q p := by
  have e := cellPoints_pt3 h
  rw [plane_pt3 hC]
  have mem : ∀ t ∈ triplesOf R, triRow t ∈ R := fun t ht => by
    have := List.mem_map_of_mem (f := triRow) ht
    rwa [hR] at this
  constructor
  · rintro ⟨t, h1, h2⟩
    exact ht.inside _ (by rw [e]; exact List.mem_map.2 ⟨_, mem t h1, rfl⟩) p h2
  · intro hq
    obtain ⟨s, hs, h2⟩ := ht.cover p hq
    rw [e] at hs
    obtain ⟨r, hr, rfl⟩ := List.mem_map.1 hs
    rw [← hR] at hr
    obtain ⟨t, h1, rfl⟩ := List.mem_map.1 hr
    exact ⟨t, h1, h2⟩

theorem box_of_rect {x0 y0 x1 y1 h : K} {p : V3 K} : InB ⟨x0, y0, 0⟩ ⟨x1, y1, 0⟩ ⟨p.x, p.y, 0⟩ ∧ 0 ≤ p.z ∧ p.z ≤ h ↔ InB ⟨x0, y0, 0⟩ ⟨x1, y1, h⟩ p := by
  simp only [InB]
  constructor
  · rintro ⟨⟨h1, h2, _⟩, h3⟩; exact ⟨h1, h2, h3⟩
  · rintro ⟨h1, h2, h3⟩; exact ⟨⟨h1, h2, le_rfl, le_rfl⟩, h3⟩

/-- **C129** a plane grid cut into triangles and extruded: the wedges fit together and cover the box, and the tetrahedra cover it as well. -/
theorem C129_extruded {lX lY h : K} (hX : 0 < lX) (hY : 0 < lY) (hh : 0 < h) {nx ny zres : Nat} (s0 s1 : K) (hn : 1 ≤ nx ∧ 1 ≤ ny ∧ 1 ≤ zres) :
    ∃ C T R, gridQ4 (args2 lX lY nx ny s0 s1 0) = some (C, T) ∧ toTriangles .Q4 (asTopo T) = some R ∧
      (∀ C' T', extrudeT3W6 (pairsOf C) (triplesOf R) h zres = (C', T') → FaceToFace (pt3 C') T' ∧
        ∀ p, (∃ r ∈ T', Hull (r.map (pt3 C')) p) ↔ InB ⟨s0, s1, 0⟩ ⟨s0 + lX, s1 + lY, h⟩ p) ∧
      (∀ C' T', extrudeT3TET4 (pairsOf C) (triplesOf R) h zres = (C', T') →
        ∀ p, (∃ r ∈ T', Hull (r.map (pt3 C')) p) ↔ InB ⟨s0, s1, 0⟩ ⟨s0 + lX, s1 + lY, h⟩ p) := by
  obtain ⟨T, h1, _⟩ := vtk2_closed 2 (by omega) tabQ4 (uniAxis lX nx 2 s0) (uniAxis lY ny 2 s1) rfl rfl 0
  have e := gridNamed_uni2 2 (by omega) lX lY s0 s1 (by omega) h1
  obtain ⟨_, T', R, pts, g1, g2, _, g3, _, g4⟩ := C102_tris hX hY s0 s1 (show 1 ≤ nx ∧ 1 ≤ ny by omega)
  rw [show gridQ4 (args2 lX lY nx ny s0 s1 0) = _ from e, Option.some.injEq, Prod.mk.injEq] at g1
  obtain ⟨rfl, rfl⟩ := g1
  have hR := trisQ4 (ax := uniAxis lX nx 2 s0) (ay := uniAxis lY ny 2 s1) rfl rfl h1 g2
  have hp : PlaneFit (pairsOf (gridCoords [uniAxis lX nx 2 s0, uniAxis lY ny 2 s1])) (triplesOf R) := by
    rw [hR]
    exact plane_latTris rfl rfl (uniAxis_inc hX hn.1) (uniAxis_inc hY hn.2.1) fun p hp => mem_latCells2.1 hp
  have hc := plane_cover two_coords (by rw [hR, triRow_latTris]) g3 g4
  refine ⟨_, T, R, e, g2, fun C' T' hr => ⟨C128_wedges _ _ h zres hp hh C' T' hr, fun p => ?_⟩, fun C' T' hr p => ?_⟩
  · rw [C128_wedges_cover _ _ h zres hp.ok hp.area hh hn.2.2 C' T' hr p, hc, box_of_rect]
  · rw [C128_tets_cover _ _ h zres hp.ok hp.area hh hn.2.2 C' T' hr p, hc, box_of_rect]

/-- **C129** the same with bins in increasing order. -/
theorem C129_extruded_bins {bx bY : List K} (hx : bx.Pairwise (· < ·)) (hy : bY.Pairwise (· < ·)) {h : K} (hh : 0 < h) {zres : Nat} (s0 s1 : K)
    (hn : 2 ≤ bx.length ∧ 2 ≤ bY.length ∧ 1 ≤ zres) :
    ∃ C T R, gridQ4 (argsB2 bx bY s0 s1 0) = some (C, T) ∧ toTriangles .Q4 (asTopo T) = some R ∧
      (∀ C' T', extrudeT3W6 (pairsOf C) (triplesOf R) h zres = (C', T') → FaceToFace (pt3 C') T' ∧
        ∀ p, (∃ r ∈ T', Hull (r.map (pt3 C')) p) ↔ InB ⟨s0 + bx.getD 0 0, s1 + bY.getD 0 0, 0⟩
          ⟨s0 + bx.getD (bx.length - 1) 0, s1 + bY.getD (bY.length - 1) 0, h⟩ p) ∧
      (∀ C' T', extrudeT3TET4 (pairsOf C) (triplesOf R) h zres = (C', T') →
        ∀ p, (∃ r ∈ T', Hull (r.map (pt3 C')) p) ↔ InB ⟨s0 + bx.getD 0 0, s1 + bY.getD 0 0, 0⟩
          ⟨s0 + bx.getD (bx.length - 1) 0, s1 + bY.getD (bY.length - 1) 0, h⟩ p) := by
  obtain ⟨T, h1, _⟩ := vtk2_closed 2 (by omega) tabQ4 (binAxis bx 2 s0) (binAxis bY 2 s1) rfl rfl 0
  have e := gridNamed_bins2 2 (by omega) s0 s1 (show 2 ≤ bx.length ∧ 2 ≤ bY.length by omega) h1
  obtain ⟨_, T', R, pts, g1, g2, _, g3, _, g4⟩ := C102_tris_bins hx hy s0 s1 (show 2 ≤ bx.length ∧ 2 ≤ bY.length by omega)
  rw [show gridQ4 (argsB2 bx bY s0 s1 0) = _ from e, Option.some.injEq, Prod.mk.injEq] at g1
  obtain ⟨rfl, rfl⟩ := g1
  have hR := trisQ4 (ax := binAxis bx 2 s0) (ay := binAxis bY 2 s1) rfl rfl h1 g2
  have hp : PlaneFit (pairsOf (gridCoords [binAxis bx 2 s0, binAxis bY 2 s1])) (triplesOf R) := by
    rw [hR]
    exact plane_latTris rfl rfl (binAxis_inc hx) (binAxis_inc hy) fun p hp => mem_latCells2.1 hp
  have hc := plane_cover two_coords (by rw [hR, triRow_latTris]) g3 g4
  refine ⟨_, T, R, e, g2, fun C' T' hr => ⟨C128_wedges _ _ h zres hp hh C' T' hr, fun p => ?_⟩, fun C' T' hr p => ?_⟩
  · rw [C128_wedges_cover _ _ h zres hp.ok hp.area hh hn.2.2 C' T' hr p, hc, box_of_rect]
  · rw [C128_tets_cover _ _ h zres hp.ok hp.area hh hn.2.2 C' T' hr p, hc, box_of_rect]

/-- **C129** the tetrahedra of an extruded grid fit together if the grid has one row of cells. Missing: grids with more rows
(`C129_extruded_tets_false`). -/
theorem C129_extruded_tets_partial {lX lY h : K} (hX : 0 < lX) (hY : 0 < lY) (hh : 0 < h) {nx zres : Nat} (s0 s1 : K) (hn : 1 ≤ nx) :
    ∃ C T R, gridQ4 (args2 lX lY nx 1 s0 s1 0) = some (C, T) ∧ toTriangles .Q4 (asTopo T) = some R ∧
      ∀ C' T', extrudeT3TET4 (pairsOf C) (triplesOf R) h zres = (C', T') → FaceToFace (pt3 C') T' := by
  obtain ⟨T, h1, _⟩ := vtk2_closed 2 (by omega) tabQ4 (uniAxis lX nx 2 s0) (uniAxis lY 1 2 s1) rfl rfl 0
  have e := gridNamed_uni2 2 (by omega) lX lY s0 s1 (show 1 ≤ nx ∧ 1 ≤ 1 by omega) h1
  obtain ⟨_, T', R, pts, g1, g2, _⟩ := C102_tris hX hY s0 s1 (show 1 ≤ nx ∧ 1 ≤ 1 by omega)
  rw [show gridQ4 (args2 lX lY nx 1 s0 s1 0) = _ from e, Option.some.injEq, Prod.mk.injEq] at g1
  obtain ⟨rfl, rfl⟩ := g1
  have hR := trisQ4 (ax := uniAxis lX nx 2 s0) (ay := uniAxis lY 1 2 s1) rfl rfl h1 g2
  have hp : PlaneFit (pairsOf (gridCoords [uniAxis lX nx 2 s0, uniAxis lY 1 2 s1])) (triplesOf R) := by
    rw [hR]
    exact plane_latTris rfl rfl (uniAxis_inc hX hn) (uniAxis_inc hY le_rfl) fun p hp => mem_latCells2.1 hp
  refine ⟨_, T, R, e, g2, fun C' T' hr => (C128_tets_partial _ _ h zres hp hh ?_ C' T' hr).1⟩
  intro t ht t' ht' p q
  rw [hR] at ht ht'
  obtain ⟨c, hc, a⟩ := triplesOf_latTris ht
  obtain ⟨c', hc', a'⟩ := triplesOf_latTris ht'
  have b := (mem_latCells2.1 hc).2
  have b' := (mem_latCells2.1 hc').2
  simp only [uniAxis, latNo2] at a a' b b'
  rcases a with rfl | rfl <;> rcases a' with rfl | rfl <;> simp only [Before] <;> omega

end

/-- **C129**, negation: the five tetrahedra of each hexahedron do not fit those of the next one. The middle of the face between the two
hexahedra is on a diagonal of each side, but not on the same one. -/
theorem C129_tets_false : ¬ ∀ (lX lY lZ : ℚ) (nx ny nz : Nat) (C : List (List ℚ)) (T : List (List Int)) (R : Topo), 0 < lX → 0 < lY → 0 < lZ →
    gridH8 (args3 lX lY lZ nx ny nz 0 0 0 0) = some (C, T) → toTetrahedra .H8 (asTopo T) = some R → FaceToFace (pt3 C) R := by
  intro hall
  have h := hall 2 1 1 2 1 1 _ _ _ (by norm_num) (by norm_num) (by norm_num)
    (show _ = some ([[0, 0, 0], [0, 0, 1], [0, 1, 0], [0, 1, 1], [1, 0, 0], [1, 0, 1], [1, 1, 0], [1, 1, 1], [2, 0, 0], [2, 0, 1], [2, 1, 0], [2, 1, 1]],
      [[0, 4, 6, 2, 1, 5, 7, 3], [4, 8, 10, 6, 5, 9, 11, 7]]) by decide +kernel)
    (show _ = some [[4, 6, 0, 5], [2, 0, 6, 3], [5, 1, 3, 0], [7, 5, 3, 6], [0, 6, 3, 5], [8, 10, 4, 9], [6, 4, 10, 7], [9, 5, 7, 4],
      [11, 9, 7, 10], [4, 10, 7, 9]] by decide +kernel)
  have h1 := h [4, 6, 0, 5] (by decide) [6, 4, 10, 7] (by decide) ⟨1, 1/2, 1/2⟩
    ⟨[0, 1/2, 0, 1/2], rfl, by decide +kernel, by decide +kernel, by decide +kernel⟩
    ⟨[0, 1/2, 0, 1/2], rfl, by decide +kernel, by decide +kernel, by decide +kernel⟩
  have h2 := hull_nonneg h1 ⟨0, 0, -1⟩ 0 (by decide +kernel)
  revert h2
  decide +kernel

/-- **C129**, negation: nor do the tetrahedra of an extruded grid with two rows of cells. -/
theorem C129_extruded_tets_false : ¬ ∀ (lX lY h : ℚ) (nx ny zres : Nat) (C : List (List ℚ)) (T : List (List Int)) (R : Topo), 0 < lX → 0 < lY → 0 < h →
    gridQ4 (args2 lX lY nx ny 0 0 0) = some (C, T) → toTriangles .Q4 (asTopo T) = some R →
    FaceToFace (pt3 (extrudeT3TET4 (pairsOf C) (triplesOf R) h zres).1) (extrudeT3TET4 (pairsOf C) (triplesOf R) h zres).2 := by
  intro hall
  have h := hall 1 2 1 1 2 1 _ _ _ (by norm_num) (by norm_num) (by norm_num)
    (show _ = some ([[0, 0], [0, 1], [0, 2], [1, 0], [1, 1], [1, 2]], [[0, 3, 4, 1], [1, 4, 5, 2]]) by decide +kernel)
    (show _ = some [[0, 3, 4], [0, 4, 1], [1, 4, 5], [1, 5, 2]] by decide +kernel)
  rw [show extrudeT3TET4 (pairsOf [[(0 : ℚ), 0], [0, 1], [0, 2], [1, 0], [1, 1], [1, 2]]) (triplesOf [[0, 3, 4], [0, 4, 1], [1, 4, 5], [1, 5, 2]]) 1 1 =
    ([[0, 0, 0], [0, 1, 0], [0, 2, 0], [1, 0, 0], [1, 1, 0], [1, 2, 0], [0, 0, 1], [0, 1, 1], [0, 2, 1], [1, 0, 1], [1, 1, 1], [1, 2, 1]],
      [[0, 3, 4, 10], [0, 3, 10, 9], [0, 9, 10, 6], [0, 4, 1, 7], [0, 4, 7, 10], [0, 10, 7, 6], [1, 4, 5, 11],
      [1, 4, 11, 10], [1, 10, 11, 7], [1, 5, 2, 8], [1, 5, 8, 11], [1, 11, 8, 7]]) by decide +kernel] at h
  have h1 := h [0, 4, 1, 7] (by decide) [1, 4, 11, 10] (by decide) ⟨1/2, 1, 1/2⟩
    ⟨[0, 1/2, 0, 1/2], rfl, by decide +kernel, by decide +kernel, by decide +kernel⟩
    ⟨[1/2, 0, 0, 1/2], rfl, by decide +kernel, by decide +kernel, by decide +kernel⟩
  have h2 := hull_nonneg h1 ⟨0, 0, -1⟩ 0 (by decide +kernel)
  revert h2
  decide +kernel

/-- **C129** is false for bins that are not sorted: two quadrilaterals share a point that is not between their common nodes. -/
theorem C129_bins_order_false : ¬ ∀ (bx bY : List ℚ) (C : List (List ℚ)) (T : List (List Int)), 2 ≤ bx.length → 2 ≤ bY.length →
    gridQ4 (argsB2 bx bY 0 0 0) = some (C, T) → FaceToFace (pt3 C) (asTopo T) := by
  intro hall
  have h := hall [0, 2, 1] [0, 1] _ _ (by decide) (by decide)
    (show _ = some ([[0, 0], [0, 1], [2, 0], [2, 1], [1, 0], [1, 1]], [[0, 2, 3, 1], [2, 4, 5, 3]]) by decide +kernel)
  have h1 := h [0, 2, 3, 1] (by decide) [2, 4, 5, 3] (by decide) ⟨1, 0, 0⟩
    ⟨[1/2, 1/2, 0, 0], rfl, by decide +kernel, by decide +kernel, by decide +kernel⟩
    ⟨[0, 1, 0, 0], rfl, by decide +kernel, by decide +kernel, by decide +kernel⟩
  have h2 := hull_nonneg h1 ⟨1, 0, 0⟩ (-2) (by decide +kernel)
  revert h2
  decide +kernel

/-- A case: two quadrilaterals with a common edge, and a point of it. -/
example : gridQ4 (args2 (2 : ℚ) 1 2 1 0 0 0) = some ([[0, 0], [0, 1], [1, 0], [1, 1], [2, 0], [2, 1]], [[0, 2, 3, 1], [2, 4, 5, 3]]) ∧
    Hull ([0, 2, 3, 1].map (pt3 [[(0 : ℚ), 0], [0, 1], [1, 0], [1, 1], [2, 0], [2, 1]])) ⟨1, 1/3, 0⟩ ∧
    Hull ([2, 4, 5, 3].map (pt3 [[(0 : ℚ), 0], [0, 1], [1, 0], [1, 1], [2, 0], [2, 1]])) ⟨1, 1/3, 0⟩ :=
  ⟨by decide +kernel, ⟨[0, 2/3, 1/3, 0], rfl, by decide +kernel, by decide +kernel, by decide +kernel⟩,
    ⟨[2/3, 0, 0, 1/3], rfl, by decide +kernel, by decide +kernel, by decide +kernel⟩⟩

end PM
