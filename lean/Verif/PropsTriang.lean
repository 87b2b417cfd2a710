import Verif.Triang
import Verif.PropsTransform

/-!
# C75: the points and the lines made by `triangulate`
-/

namespace PM

/-! ## specification -/

section
variable {K : Type} [Field K] [LinearOrder K]

/-- The points of the rectangle with the given size whose corner is at `-o`. -/
def InRect (size : K × K) (o : K × K × K) (p : V3 K) : Prop :=
  -o.1 ≤ p.x ∧ p.x ≤ size.1 - o.1 ∧ -o.2.1 ≤ p.y ∧ p.y ≤ size.2 - o.2.1

/-- The corners of that rectangle at the height `z`. -/
def rectCorners (size : K × K) (o : K × K × K) (z : K) : List (V3 K) :=
  [⟨-o.1, -o.2.1, z⟩, ⟨size.1 - o.1, -o.2.1, z⟩, ⟨size.1 - o.1, size.2 - o.2.1, z⟩, ⟨-o.1, size.2 - o.2.1, z⟩]

/-- The origin stands for the numbers given: two or three of them, the rest are zeros. -/
def OriginOf (origo : Option (List K)) (o : K × K × K) : Prop :=
  match origo with
  | none => o.1 = 0 ∧ o.2.1 = 0 ∧ o.2.2 = 0
  | some l => 2 ≤ l.length ∧ l.length ≤ 3 ∧ ∀ i, i < 3 → ([o.1, o.2.1, o.2.2])[i]? = some ((l[i]?).getD 0)

end

/-- The line joins two corners of the triangle. -/
def SideOf (e t : List Nat) : Prop := ∃ i, i < 3 ∧ ∃ a b, t[i]? = some a ∧ t[(i + 1) % 3]? = some b ∧ e.Perm [a, b]

/-! ## lemmas -/

section
variable {K : Type} [Field K]

theorem linspace_length (a b : K) (n : Nat) : (linspace a b n).length = n := by
  unfold linspace; split <;> simp_all

theorem linspace_get {a b : K} {n i : Nat} (hi : i < n) (hn : 2 ≤ n) :
    (linspace a b n)[i]? = some (a + (i : K) * ((b - a) / ((n : K) - 1))) := by
  unfold linspace
  rw [if_neg (by omega), List.getElem?_map, List.getElem?_range hi]
  rfl

theorem triOrigo_of {origo : Option (List K)} {o : K × K × K} (h : OriginOf origo o) : triOrigo origo = some o := by
  obtain ⟨a, b, c⟩ := o
  cases origo with
  | none => obtain ⟨rfl, rfl, rfl⟩ := h; rfl
  | some l =>
    obtain ⟨h1, h2, h3⟩ := h
    have e0 := h3 0 (by omega)
    have e1 := h3 1 (by omega)
    have e2 := h3 2 (by omega)
    match l, h1, h2 with
    | [x, y], _, _ => simp at e0 e1 e2; subst e0 e1 e2; rfl
    | [x, y, z], _, _ => simp at e0 e1 e2; subst e0 e1 e2; rfl

theorem triGrid_length (size : K × K) (n m : Nat) (o : K × K × K) : (triGridPoints size n m o).length = n * m := by
  unfold triGridPoints
  rw [length_flatMap_block (n := n) fun _ _ => by simp [linspace_length], linspace_length]

theorem triGrid_get {size : K × K} {n m : Nat} {o : K × K × K} {i j : Nat} (hi : i < n) {x y : K}
    (hx : (linspace (-o.1) (size.1 - o.1) n)[i]? = some x) (hy : (linspace (-o.2.1) (size.2 - o.2.1) m)[j]? = some y) :
    (triGridPoints size n m o)[j * n + i]? = some ⟨x, y, 0⟩ := by
  unfold triGridPoints
  rw [getElem?_flatMap_block (fun _ _ => by simp [linspace_length]) hi, hy]
  simp [hx]

end

/-! ## C75: points -/

section
variable {K : Type} [Field K] [LinearOrder K] [IsStrictOrderedRing K]

theorem linspace_bounds {a b : K} (h : a ≤ b) {n : Nat} : ∀ x ∈ linspace a b n, a ≤ x ∧ x ≤ b := by
  intro x hx
  unfold linspace at hx
  split at hx
  · rw [List.mem_singleton] at hx; subst hx; exact ⟨le_refl _, h⟩
  · rename_i hn
    obtain ⟨i, hi, rfl⟩ := List.mem_map.1 hx
    rw [List.mem_range] at hi
    have h2 : 2 ≤ n := by omega
    have hpos : (0 : K) < (n : K) - 1 := by
      have : (2 : K) ≤ (n : K) := by exact_mod_cast h2
      linarith
    have hi' : (i : K) ≤ (n : K) - 1 := by
      have : (i : K) + 1 ≤ (n : K) := by exact_mod_cast hi
      linarith
    have hi0 : (0 : K) ≤ (i : K) := Nat.cast_nonneg _
    have hd : 0 ≤ (b - a) / ((n : K) - 1) := div_nonneg (by linarith) hpos.le
    constructor
    · nlinarith
    · have : (i : K) * ((b - a) / ((n : K) - 1)) ≤ ((n : K) - 1) * ((b - a) / ((n : K) - 1)) := mul_le_mul_of_nonneg_right hi' hd
      rw [mul_div_cancel₀ _ hpos.ne'] at this
      linarith

/-- **C75** a pair `(n, m)`: `n * m` points of the plane z = 0 in rows of equal distances, `n` along x and `m` along y, from one
side of the rectangle to the other; the four corners are among them. -/
theorem C75_grid (size : K × K) (hs : 0 ≤ size.1 ∧ 0 ≤ size.2) {n m : Nat} (hn : 2 ≤ n) (hm : 2 ≤ m) (origo : Option (List K))
    {o : K × K × K} (ho : OriginOf origo o) (random : Bool) (rx ry : List K) :
    ∃ P, triPoints size true (.pair n m) origo random rx ry = some P ∧ P.length = n * m ∧
      (∀ i j, i < n → j < m → P[j * n + i]? = some
        ⟨-o.1 + (i : K) * (size.1 / ((n : K) - 1)), -o.2.1 + (j : K) * (size.2 / ((m : K) - 1)), 0⟩) ∧
      (∀ p ∈ P, InRect size o p ∧ p.z = 0) ∧ ∀ c ∈ rectCorners size o 0, c ∈ P := by
  have hget : ∀ i j, i < n → j < m → (triGridPoints size n m o)[j * n + i]? = some
        ⟨-o.1 + (i : K) * (size.1 / ((n : K) - 1)), -o.2.1 + (j : K) * (size.2 / ((m : K) - 1)), 0⟩ := by
    intro i j hi hj
    rw [triGrid_get hi (linspace_get hi hn) (linspace_get hj hm)]
    simp
  refine ⟨triGridPoints size n m o, by simp [triPoints, triOrigo_of ho], triGrid_length .., hget, ?_, ?_⟩
  · intro p hp
    unfold triGridPoints at hp
    obtain ⟨y, hy, hp⟩ := List.mem_flatMap.1 hp
    obtain ⟨x, hx, rfl⟩ := List.mem_map.1 hp
    have bx := linspace_bounds (by linarith [hs.1]) x hx
    have bY := linspace_bounds (by linarith [hs.2]) y hy
    exact ⟨⟨bx.1, bx.2, bY.1, bY.2⟩, rfl⟩
  · have cn : ((n - 1 : Nat) : K) = (n : K) - 1 := by rw [Nat.cast_sub (by omega)]; simp
    have cm : ((m - 1 : Nat) : K) = (m : K) - 1 := by rw [Nat.cast_sub (by omega)]; simp
    have pn : (n : K) - 1 ≠ 0 := by rw [← cn]; exact_mod_cast (by omega : n - 1 ≠ 0)
    have pm : (m : K) - 1 ≠ 0 := by rw [← cm]; exact_mod_cast (by omega : m - 1 ≠ 0)
    intro c hc
    simp only [rectCorners, List.mem_cons, List.not_mem_nil, or_false] at hc
    rcases hc with rfl | rfl | rfl | rfl
    · exact List.mem_of_getElem? ((hget 0 0 (by omega) (by omega)).trans (by simp))
    · exact List.mem_of_getElem? ((hget (n - 1) 0 (by omega) (by omega)).trans (by
        rw [cn, mul_div_cancel₀ _ pn]; simp; ring))
    · exact List.mem_of_getElem? ((hget (n - 1) (m - 1) (by omega) (by omega)).trans (by
        rw [cn, cm, mul_div_cancel₀ _ pn, mul_div_cancel₀ _ pm]
        simp only [Option.some.injEq, V3.mk.injEq, and_true]; constructor <;> ring))
    · exact List.mem_of_getElem? ((hget 0 (m - 1) (by omega) (by omega)).trans (by
        rw [cm, mul_div_cancel₀ _ pm]; simp; ring))

/-- **C75** no two points of the grid are the same. -/
theorem C75_distinct (size : K × K) (hs : 0 < size.1 ∧ 0 < size.2) {n m : Nat} (hn : 2 ≤ n) (hm : 2 ≤ m) (o : K × K × K) :
    (triGridPoints size n m o).Nodup := by
  have inj : ∀ {a b : K} {n : Nat}, 2 ≤ n → a < b → (linspace a b n).Nodup := by
    intro a b n hn hab
    unfold linspace
    rw [if_neg (by omega)]
    apply List.Nodup.map_on _ List.nodup_range
    intro i _ j _ h
    have hpos : (0 : K) < (n : K) - 1 := by
      have : (2 : K) ≤ (n : K) := by exact_mod_cast hn
      linarith
    have hd : (b - a) / ((n : K) - 1) ≠ 0 := (div_pos (by linarith) hpos).ne'
    have := mul_right_cancel₀ hd (add_left_cancel h)
    exact_mod_cast this
  unfold triGridPoints
  rw [List.nodup_flatMap]
  constructor
  · intro y _
    exact (inj hn (by linarith [hs.1])).map fun a b h => by simpa using h
  · refine (inj (a := -o.2.1) (b := size.2 - o.2.1) hm (by linarith [hs.2])).imp ?_
    intro y y' hne
    rw [Function.onFun, List.disjoint_left]
    intro p hp hp'
    obtain ⟨x, -, rfl⟩ := List.mem_map.1 hp
    obtain ⟨x', -, h⟩ := List.mem_map.1 hp'
    exact hne (by simpa using (V3.ext_iff.1 h).2.1.symm)

/-- **C75** random points: the corners of the rectangle, then one point of the rectangle for each pair of random numbers. -/
theorem C75_random (size : K × K) (hs : 0 ≤ size.1 ∧ 0 ≤ size.2) (isTuple : Bool) (n : Nat) (origo : Option (List K))
    {o : K × K × K} (ho : OriginOf origo o) {rx ry : List K} (hx : rx.length = n) (hy : ry.length = n)
    (hr : ∀ r, r ∈ rx ∨ r ∈ ry → 0 ≤ r ∧ r < 1) :
    ∃ P, triPoints size isTuple (.int n) origo true rx ry = some P ∧ P.length = n + 4 ∧
      P.take 4 = rectCorners size o (-o.2.2) ∧ ∀ p ∈ P, InRect size o p ∧ p.z = -o.2.2 := by
  refine ⟨triRandomPoints size rx ry o, by simp [triPoints, triOrigo_of ho], ?_, ?_, ?_⟩
  · simp [triRandomPoints, hx, hy]
  · simp [triRandomPoints, rectCorners]
  · intro p hp
    unfold triRandomPoints at hp
    obtain ⟨q, hq, rfl⟩ := List.mem_map.1 hp
    obtain ⟨q1, q2⟩ := q
    obtain ⟨h1, h2⟩ := List.of_mem_zip hq
    have b : ∀ (z : K) (l r : List K), (∀ x ∈ l, 0 ≤ x ∧ x ≤ 1) → (∀ x ∈ r, 0 ≤ x ∧ x < 1) → z ∈ l ++ r → 0 ≤ z ∧ z ≤ 1 := by
      intro z l r hl hr' hz
      rcases List.mem_append.1 hz with h | h
      · exact hl z h
      · exact ⟨(hr' z h).1, (hr' z h).2.le⟩
    have b1 := b q1 _ rx (by simp) (fun x hx => hr x (.inl hx)) h1
    have b2 := b q2 _ ry (by simp) (fun x hx => hr x (.inr hx)) h2
    refine ⟨⟨?_, ?_, ?_, ?_⟩, by simp⟩ <;> simp only
    · nlinarith [mul_nonneg b1.1 hs.1]
    · nlinarith [mul_le_mul_of_nonneg_right b1.2 hs.1]
    · nlinarith [mul_nonneg b2.1 hs.2]
    · nlinarith [mul_le_mul_of_nonneg_right b2.2 hs.2]

end

/-! ## C75: lines -/

/-- **C75** `return_lines=True`: every side of every triangle is listed exactly once, no other line is, and the numbers given for
a triangle are those of its three sides in their order. -/
theorem C75_lines {triangles : Topo} (h : ∀ t ∈ triangles, t.length = 3) :
    ∃ E I, triLines triangles = some (E, I) ∧ I.length = triangles.length ∧
      (∀ (i j : Nat) (a b : List Nat), E[i]? = some a → E[j]? = some b → a.Perm b → i = j) ∧
      (∀ (c k : Nat) (t : List Nat), triangles[c]? = some t → k < 3 → ∃ id e a b, nodeAt I c k = some id ∧ E[id]? = some e ∧
        t[k]? = some a ∧ t[(k + 1) % 3]? = some b ∧ e.Perm [a, b]) ∧
      (∀ e ∈ E, ∃ t ∈ triangles, SideOf e t) := by
  let f : List Nat → List (List Nat) := fun t => [[t.getD 0 0, t.getD 1 0], [t.getD 1 0, t.getD 2 0], [t.getD 2 0, t.getD 0 0]]
  have he : edgesTri triangles = some (triangles.map f) := by
    unfold edgesTri
    apply mapM_some
    intro t ht
    match t, h t ht with
    | [a, b, c], _ => rfl
  obtain ⟨u1, u2, u3, u4, -⟩ := C08_unique_topo_data (triangles.map f)
  have hrow : ∀ (c k : Nat) (t : List Nat), triangles[c]? = some t → k < 3 →
      ∃ a b, t[k]? = some a ∧ t[(k + 1) % 3]? = some b ∧ nodeAt (triangles.map f) c k = some [a, b] := by
    intro c k t ht hk
    match t, h t (List.mem_of_getElem? ht) with
    | [a, b, d], _ =>
      have : (triangles.map f)[c]? = some [[a, b], [b, d], [d, a]] := by rw [List.getElem?_map, ht]; rfl
      match k, hk with
      | 0, _ => exact ⟨a, b, rfl, rfl, by simp [nodeAt, this]⟩
      | 1, _ => exact ⟨b, d, rfl, rfl, by simp [nodeAt, this]⟩
      | 2, _ => exact ⟨d, a, rfl, rfl, by simp [nodeAt, this]⟩
  have hlen : (uniqueTopoData (triangles.map f)).2.length = triangles.length := by
    have := congrArg List.length u2
    simpa using this
  refine ⟨_, _, by simp only [triLines, he, Option.map_some], hlen, u1, ?_, ?_⟩
  · intro c k t ht hk
    obtain ⟨a, b, ha, hb, hn⟩ := hrow c k t ht hk
    obtain ⟨id, r, h1, h2, h3, -⟩ := u3 c k _ hn
    exact ⟨id, r, a, b, h1, h2, ha, hb, h3⟩
  · intro e he
    obtain ⟨id, hid, rfl⟩ := List.getElem_of_mem he
    obtain ⟨c, k, hck⟩ := u4 id hid
    have hc : c < triangles.length := by
      rw [← hlen]
      unfold nodeAt at hck
      by_contra hcon
      rw [List.getElem?_eq_none (by omega)] at hck
      cases hck
    have hk : k < 3 := by
      have h1 := congrArg (fun l => l[c]?) u2
      simp only [List.getElem?_map, List.map_map, Function.comp_def] at h1
      unfold nodeAt at hck
      rw [List.getElem?_eq_getElem (by omega)] at hck h1
      rw [List.getElem?_eq_getElem hc] at h1
      simp only [Option.map_some, Option.some.injEq] at h1
      have h3 : (f triangles[c]).length = 3 := rfl
      rw [h3] at h1
      by_contra hcon
      have : ((uniqueTopoData (triangles.map f)).2[c]'(by omega))[k]? = none := List.getElem?_eq_none (by omega)
      have hck' : ((uniqueTopoData (triangles.map f)).2[c]'(by omega))[k]? = some id := hck
      rw [this] at hck'
      cases hck'
    obtain ⟨a, b, ha, hb, hn⟩ := hrow c k _ (List.getElem?_eq_getElem hc) hk
    obtain ⟨id', r, h1, h2, h3, -⟩ := u3 c k _ hn
    rw [hck] at h1
    obtain rfl := Option.some.inj h1
    rw [List.getElem?_eq_getElem hid] at h2
    refine ⟨triangles[c], List.getElem_mem hc, k, hk, a, b, ha, hb, ?_⟩
    rw [Option.some.inj h2]
    exact h3

/-! ## what does not hold -/

/-- (negation) The pair is documented as the subdivisions along the sides ("a rectangle of size 800x600 with a subdivision of
10x10"): `n` subdivisions take `n + 1` points. -/
theorem C75_subdivision_false : ¬ ∀ (size : ℚ × ℚ) (n m : Nat) (P : List (V3 ℚ)), 1 ≤ n → 1 ≤ m →
    triPoints size true (.pair n m) none false [] [] = some P → P.length = (n + 1) * (m + 1) := by
  intro h
  exact absurd (h (800, 600) 10 10 (triGridPoints (800, 600) 10 10 (0, 0, 0)) (by decide) (by decide) rfl)
    (by rw [triGrid_length]; decide)

/-- (negation) The default of `shape` gives a single point: there is nothing to triangulate. -/
theorem C75_default_false : ¬ ∀ (size : ℚ × ℚ) (P : List (V3 ℚ)), 0 < size.1 → 0 < size.2 →
    triPoints size true .default none false [] [] = some P → 4 ≤ P.length := by
  intro h
  exact absurd (h (1, 1) _ (by decide +kernel) (by decide +kernel) rfl) (by decide +kernel)

/-- (negation) An integer as `shape` needs `random=True`: without it every call raises. -/
theorem C75_int_false (size : ℚ × ℚ) (isTuple : Bool) (n : Nat) (origo : Option (List ℚ)) (rx ry : List ℚ) :
    triPoints size isTuple (.int n) origo false rx ry = none := by
  unfold triPoints
  cases triOrigo origo <;> rfl

/-- (negation) The height of `origo` is used for random points only. -/
theorem C75_height_false : ¬ ∀ (size : ℚ × ℚ) (n m : Nat) (a b c : ℚ) (P : List (V3 ℚ)),
    triPoints size true (.pair n m) (some [a, b, c]) false [] [] = some P → ∀ p ∈ P, p.z = -c := by
  intro h
  exact absurd (h (1, 1) 2 2 0 0 5 _ rfl) (by decide +kernel)

example : triPoints ((4, 2) : ℚ × ℚ) true (.pair 3 2) (some [1, 1]) false [] [] =
    some [⟨-1, -1, 0⟩, ⟨1, -1, 0⟩, ⟨3, -1, 0⟩, ⟨-1, 1, 0⟩, ⟨1, 1, 0⟩, ⟨3, 1, 0⟩] := by decide +kernel

example : triLines [[0, 1, 2], [2, 1, 3]] = some ([[0, 1], [0, 2], [1, 2], [1, 3], [2, 3]], [[0, 2, 1], [2, 3, 4]]) := by decide

end PM
