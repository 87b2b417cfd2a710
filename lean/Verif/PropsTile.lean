import Verif.Tile
import Verif.PropsTopo
import Verif.Transform
import Mathlib.Algebra.Order.Field.Rat
import Mathlib.Tactic.Linarith

/-!
# Tiling (C56)
-/

namespace PM

/-! ## lists of writes -/

theorem runW_congr {ι α : Type} [DecidableEq ι] (w : List (ι × α)) {m m' : ι → α} {p : ι} (h : m p = m' p) :
    runW w m p = runW w m' p := by
  induction w generalizing m m' with
  | nil => exact h
  | cons x w ih =>
    show runW w (Function.update m x.1 x.2) p = runW w (Function.update m' x.1 x.2) p
    apply ih
    by_cases hx : p = x.1
    · subst hx; simp
    · simp [Function.update_of_ne hx, h]

/-- If only iteration `b` writes to `p`, the value after the loop is the value after this iteration. -/
theorem runW_flatten_only {ι α β : Type} [DecidableEq ι] (order : List β) (f : β → List (ι × α)) (m : ι → α) {b : β}
    (hb : b ∈ order) (hn : order.Nodup) {p : ι} (h : ∀ c ∈ order, c ≠ b → ∀ x ∈ f c, x.1 ≠ p) :
    runW (order.map f).flatten m p = runW (f b) m p := by
  induction order generalizing m with
  | nil => simp at hb
  | cons c order ih =>
    rw [List.map_cons, List.flatten_cons, runW_append]
    obtain ⟨hc, hn'⟩ := List.nodup_cons.1 hn
    by_cases hcb : c = b
    · subst hcb
      apply runW_of_not_mem
      intro x hx
      obtain ⟨l, hl, hxl⟩ := List.mem_flatten.1 hx
      obtain ⟨d, hd, rfl⟩ := List.mem_map.1 hl
      exact h d (List.mem_cons_of_mem _ hd) (by rintro rfl; exact hc hd) x hxl
    · rw [ih _ ((List.mem_cons.1 hb).resolve_left (Ne.symm hcb)) hn' fun d hd => h d (List.mem_cons_of_mem _ hd)]
      apply runW_congr
      exact runW_of_not_mem (h c List.mem_cons_self hcb)

/-! ## the map of the nodes -/

/-- Number of node `k` in block `(i, j)`. -/
def tileNo (nY nP i j k : Nat) : Nat := (i * nY + j) * nP + k

theorem tileNo_inj {nY nP i j k i' j' k' : Nat} (hj : j < nY) (hj' : j' < nY) (hk : k < nP) (hk' : k' < nP)
    (h : tileNo nY nP i j k = tileNo nY nP i' j' k') : i = i' ∧ j = j' ∧ k = k' := by
  obtain ⟨h1, h2⟩ := mixed_radix_inj hk hk' h
  obtain ⟨h3, h4⟩ := mixed_radix_inj hj hj' h1
  exact ⟨h3, h4, h2⟩

theorem tileNo_lt {nX nY nP i j k : Nat} (hi : i < nX) (hj : j < nY) (hk : k < nP) : tileNo nY nP i j k < nX * nY * nP := by
  unfold tileNo
  have h1 : i * nY + j + 1 ≤ nX * nY := by
    have : (i + 1) * nY ≤ nX * nY := Nat.mul_le_mul_right _ hi
    have : (i + 1) * nY = i * nY + nY := by ring
    omega
  have h2 : (i * nY + j + 1) * nP ≤ nX * nY * nP := Nat.mul_le_mul_right _ h1
  have h3 : (i * nY + j + 1) * nP = (i * nY + j) * nP + nP := by ring
  omega

theorem mem_tileBlocks {nX nY i j : Nat} : (i, j) ∈ tileBlocks nX nY ↔ i < nX ∧ j < nY := by
  unfold tileBlocks
  simp only [List.mem_flatMap, List.mem_map, List.mem_range, Prod.mk.injEq]
  constructor
  · rintro ⟨i', hi, j', hj, rfl, rfl⟩; exact ⟨hi, hj⟩
  · rintro ⟨hi, hj⟩; exact ⟨i, hi, j, hj, rfl, rfl⟩

theorem tileBlocks_nodup (nX nY : Nat) : (tileBlocks nX nY).Nodup := by
  unfold tileBlocks
  rw [List.nodup_flatMap]
  refine ⟨fun i _ => List.nodup_range.map fun a b h => by simpa using h, ?_⟩
  apply List.Pairwise.imp _ (List.nodup_range (n := nX))
  intro a b hab
  rw [Function.onFun, List.disjoint_left]
  intro x hx hx'
  obtain ⟨j, -, rfl⟩ := List.mem_map.1 hx
  obtain ⟨j', -, h⟩ := List.mem_map.1 hx'
  exact hab (by simpa using congrArg Prod.fst h.symm)

/-- A border list pairs with another one: same length, and entries are nodes. -/
structure Paired (a b : List Nat) (nP : Nat) : Prop where
  len : a.length = b.length
  nodup : a.Nodup
  lt : ∀ k ∈ a, k < nP
  lt' : ∀ k ∈ b, k < nP

/-- The partner of node `k`. -/
def PairOf (a b : List Nat) (k l : Nat) : Prop := ∃ t : Nat, a[t]? = some k ∧ b[t]? = some l

theorem Paired.exists {a b : List Nat} {nP k : Nat} (h : Paired a b nP) (hk : k ∈ a) : ∃ l, PairOf a b k l ∧ l ∈ b := by
  obtain ⟨t, ht⟩ := List.getElem?_of_mem hk
  have htl : t < b.length := by rw [← h.len]; exact (List.getElem?_eq_some_iff.1 ht).1
  exact ⟨b[t], ⟨t, ht, List.getElem?_eq_getElem htl⟩, List.getElem_mem htl⟩

theorem mem_zip_shift {a b : List Nat} {s s' : Nat} {x : Nat × Nat} :
    x ∈ (a.map (· + s)).zip (b.map (· + s')) ↔ ∃ k l, PairOf a b k l ∧ x = (k + s, l + s') := by
  constructor
  · intro hx
    obtain ⟨t, ht⟩ := List.getElem?_of_mem hx
    rw [List.getElem?_zip_eq_some, List.getElem?_map, List.getElem?_map] at ht
    obtain ⟨h1, h2⟩ := ht
    obtain ⟨k, hk, e1⟩ := Option.map_eq_some_iff.1 h1
    obtain ⟨l, hl, e2⟩ := Option.map_eq_some_iff.1 h2
    exact ⟨k, l, ⟨t, hk, hl⟩, by ext <;> simp [← e1, ← e2]⟩
  · rintro ⟨k, l, ⟨t, hk, hl⟩, rfl⟩
    apply List.mem_of_getElem? (i := t)
    rw [List.getElem?_zip_eq_some, List.getElem?_map, List.getElem?_map, hk, hl]
    exact ⟨rfl, rfl⟩

theorem zip_shift_consistent {a b : List Nat} {nP s s' : Nat} (h : Paired a b nP) :
    Consistent ((a.map (· + s)).zip (b.map (· + s'))) := by
  intro x hx y hy hxy
  obtain ⟨k, l, ⟨t, h1, h2⟩, rfl⟩ := mem_zip_shift.1 hx
  obtain ⟨k', l', ⟨t', h3, h4⟩, rfl⟩ := mem_zip_shift.1 hy
  simp only at hxy ⊢
  obtain rfl : k = k' := by omega
  have : t = t' := by
    have hl := (List.getElem?_eq_some_iff.1 h1).1
    exact (List.getElem?_inj hl h.nodup).1 (h1.trans h3.symm)
  subst this
  rw [h2] at h4
  rw [Option.some.inj h4]

/-- What the map does to the nodes, for every order of the iterations. -/
theorem tileImap_spec {b : Borders} {nX nY nP : Nat} {order : List (Nat × Nat)} (ho : (tileBlocks nX nY).Perm order)
    (hx : 1 < nX → Paired b.x0 b.x1 nP) (hy : 1 < nY → Paired b.y0 b.y1 nP) :
    ∃ imap, tileImap b nX nY nP order = some imap ∧ imap.length = nX * nY * nP ∧
      ∀ i j k, i < nX → j < nY → k < nP →
        (∀ l, 0 < j → PairOf b.y0 b.y1 k l → imap[tileNo nY nP i j k]? = some (tileNo nY nP i (j - 1) l)) ∧
        (∀ l, (j = 0 ∨ k ∉ b.y0) → 0 < i → PairOf b.x0 b.x1 k l → imap[tileNo nY nP i j k]? = some (tileNo nY nP (i - 1) j l)) ∧
        ((j = 0 ∨ k ∉ b.y0) → (i = 0 ∨ k ∉ b.x0) → imap[tileNo nY nP i j k]? = some (tileNo nY nP i j k)) := by
  -- the writes of one iteration
  set wx : Nat × Nat → List (Nat × Nat) := fun ij =>
    if 0 < ij.1 then (b.x0.map (· + (ij.1 * nY + ij.2) * nP)).zip (b.x1.map (· + ((ij.1 - 1) * nY + ij.2) * nP)) else [] with hwx
  set wy : Nat × Nat → List (Nat × Nat) := fun ij =>
    if 0 < ij.2 then (b.y0.map (· + (ij.1 * nY + ij.2) * nP)).zip (b.y1.map (· + (ij.1 * nY + (ij.2 - 1)) * nP)) else [] with hwy
  have hmem : ∀ ij ∈ order, ij.1 < nX ∧ ij.2 < nY := by
    rintro ⟨i, j⟩ h
    exact mem_tileBlocks.1 (ho.mem_iff.2 h)
  have hW : order.mapM (fun ij => tileWrites b nY nP ij) = some (order.map fun ij => wx ij ++ wy ij) := by
    apply mapM_some
    intro ij hij
    obtain ⟨h1, h2⟩ := hmem ij hij
    unfold tileWrites
    have e1 : (if 0 < ij.1 then assignMap (b.x0.map (· + (ij.1 * nY + ij.2) * nP)) (b.x1.map (· + ((ij.1 - 1) * nY + ij.2) * nP))
        else some []) = some (wx ij) := by
      by_cases hi : 0 < ij.1
      · rw [if_pos hi, hwx]
        simp only [if_pos hi]
        unfold assignMap
        rw [if_pos (by simp [(hx (by omega)).len])]
      · rw [if_neg hi, hwx]
        simp only [if_neg hi]
    have e2 : (if 0 < ij.2 then assignMap (b.y0.map (· + (ij.1 * nY + ij.2) * nP)) (b.y1.map (· + (ij.1 * nY + (ij.2 - 1)) * nP))
        else some []) = some (wy ij) := by
      by_cases hj : 0 < ij.2
      · rw [if_pos hj, hwy]
        simp only [if_pos hj]
        unfold assignMap
        rw [if_pos (by simp [(hy (by omega)).len])]
      · rw [if_neg hj, hwy]
        simp only [if_neg hj]
    rw [e1, e2]
    rfl
  refine ⟨_, by unfold tileImap; rw [hW]; rfl, by simp [toArr], ?_⟩
  intro i j k hi hj hk
  have hlt := tileNo_lt hi hj hk
  have hval : (toArr (nX * nY * nP) (runW (order.map fun ij => wx ij ++ wy ij).flatten id))[tileNo nY nP i j k]? =
      some (runW (wy (i, j)) (runW (wx (i, j)) id) (tileNo nY nP i j k)) := by
    rw [toArr_getElem? _ hlt, runW_flatten_only order (fun ij => wx ij ++ wy ij) id (b := (i, j))
      (ho.mem_iff.1 (mem_tileBlocks.2 ⟨hi, hj⟩)) (ho.nodup_iff.1 (tileBlocks_nodup nX nY))]
    · rw [runW_append]
    · rintro ⟨i', j'⟩ hc hne x hxm heq
      obtain ⟨hi', hj'⟩ := hmem _ hc
      have hform : ∃ k', k' < nP ∧ x.1 = tileNo nY nP i' j' k' := by
        rcases List.mem_append.1 hxm with hxm | hxm
        · rw [hwx] at hxm
          simp only at hxm
          split at hxm
          · rename_i h0
            obtain ⟨k', l', ⟨t, h1, -⟩, rfl⟩ := mem_zip_shift.1 hxm
            exact ⟨k', (hx (by simp only at h0 hi'; omega)).lt k' (List.mem_of_getElem? h1), by unfold tileNo; simp only; omega⟩
          · simp at hxm
        · rw [hwy] at hxm
          simp only at hxm
          split at hxm
          · rename_i h0
            obtain ⟨k', l', ⟨t, h1, -⟩, rfl⟩ := mem_zip_shift.1 hxm
            exact ⟨k', (hy (by simp only at h0 hj'; omega)).lt k' (List.mem_of_getElem? h1), by unfold tileNo; simp only; omega⟩
          · simp at hxm
      obtain ⟨k', hk', hx1⟩ := hform
      rw [hx1] at heq
      obtain ⟨rfl, rfl, -⟩ := tileNo_inj hj' hj hk' hk heq
      exact hne rfl
  have hny : (j = 0 ∨ k ∉ b.y0) → ∀ x ∈ wy (i, j), x.1 ≠ tileNo nY nP i j k := by
    intro h x hxm
    rw [hwy] at hxm
    simp only at hxm
    split at hxm
    · rename_i h0
      obtain ⟨k', l', ⟨t, h1, -⟩, rfl⟩ := mem_zip_shift.1 hxm
      intro heq
      have : k' = k := by unfold tileNo at heq; simp only at heq; omega
      subst this
      rcases h with h | h
      · omega
      · exact h (List.mem_of_getElem? h1)
    · simp at hxm
  have hnx : (i = 0 ∨ k ∉ b.x0) → ∀ x ∈ wx (i, j), x.1 ≠ tileNo nY nP i j k := by
    intro h x hxm
    rw [hwx] at hxm
    simp only at hxm
    split at hxm
    · rename_i h0
      obtain ⟨k', l', ⟨t, h1, -⟩, rfl⟩ := mem_zip_shift.1 hxm
      intro heq
      have : k' = k := by unfold tileNo at heq; simp only at heq; omega
      subst this
      rcases h with h | h
      · omega
      · exact h (List.mem_of_getElem? h1)
    · simp at hxm
  refine ⟨fun l h0 hp => ?_, fun l hy0 h0 hp => ?_, fun hy0 hx0 => ?_⟩
  · rw [hval]
    congr 1
    have hm : (tileNo nY nP i j k, tileNo nY nP i (j - 1) l) ∈ wy (i, j) := by
      rw [hwy]
      simp only [if_pos h0]
      exact mem_zip_shift.2 ⟨k, l, hp, by unfold tileNo; ext <;> simp only <;> omega⟩
    have hc : Consistent (wy (i, j)) := by
      rw [hwy]
      simp only [if_pos h0]
      exact zip_shift_consistent (hy (by omega))
    exact runW_of_mem hc hm
  · rw [hval, runW_of_not_mem (hny hy0)]
    congr 1
    have hm : (tileNo nY nP i j k, tileNo nY nP (i - 1) j l) ∈ wx (i, j) := by
      rw [hwx]
      simp only [if_pos h0]
      exact mem_zip_shift.2 ⟨k, l, hp, by unfold tileNo; ext <;> simp only <;> omega⟩
    have hc : Consistent (wx (i, j)) := by
      rw [hwx]
      simp only [if_pos h0]
      exact zip_shift_consistent (hx (by omega))
    exact runW_of_mem hc hm
  · rw [hval, runW_of_not_mem (hny hy0), runW_of_not_mem (hnx hx0)]
    rfl

/-! ## the mesh -/

section
variable {K : Type} [Field K] [LinearOrder K] [IsStrictOrderedRing K]

/-- Points `a` and `b` (lists of numbers of equal length) differ by `v`, one by one. -/
def ShiftedBy (coords : List (V3 K)) (a b : List Nat) (v : V3 K) : Prop :=
  a.length = b.length ∧ ∀ (t k l : Nat) (p q : V3 K), a[t]? = some k → b[t]? = some l → coords[k]? = some p → coords[l]? = some q →
    q = p + v

/-- Numbers of the points with a given coordinate, in order. -/
def atCoord (f : V3 K → K) (coords : List (V3 K)) (c : K) : List Nat :=
  (List.range coords.length).filter fun k => decide ((coords[k]?).map f = some c)

/-- A tile: its smallest box is `[x0, x1] × [y0, y1]`, points closer to a side than the tolerance are on the side, and the points
on opposite sides are translates of each other in the order of their numbers. -/
structure IsTile (coords : List (V3 K)) (x0 x1 y0 y1 tol : K) : Prop where
  tol_pos : 0 < tol
  minx : (∀ p ∈ coords, x0 ≤ p.x) ∧ ∃ p ∈ coords, p.x = x0
  maxx : (∀ p ∈ coords, p.x ≤ x1) ∧ ∃ p ∈ coords, p.x = x1
  miny : (∀ p ∈ coords, y0 ≤ p.y) ∧ ∃ p ∈ coords, p.y = y0
  maxy : (∀ p ∈ coords, p.y ≤ y1) ∧ ∃ p ∈ coords, p.y = y1
  close : ∀ p ∈ coords, (|p.x - x0| < tol → p.x = x0) ∧ (|p.x - x1| < tol → p.x = x1) ∧ (|p.y - y0| < tol → p.y = y0) ∧
    (|p.y - y1| < tol → p.y = y1)
  shiftx : ShiftedBy coords (atCoord V3.x coords x0) (atCoord V3.x coords x1) ⟨x1 - x0, 0, 0⟩
  shifty : ShiftedBy coords (atCoord V3.y coords y0) (atCoord V3.y coords y1) ⟨0, y1 - y0, 0⟩

omit [IsStrictOrderedRing K] in
theorem minK?_eq {l : List K} {c : K} (h : ∀ x ∈ l, c ≤ x) (hc : c ∈ l) : minK? l = some c := by
  cases l with
  | nil => simp at hc
  | cons a l =>
    have key : ∀ (l : List K) (a : K), (∀ x ∈ a :: l, c ≤ x) → c ∈ a :: l → l.foldl min a = c := by
      intro l
      induction l with
      | nil => intro a h1 h2; simpa using (List.mem_singleton.1 h2).symm
      | cons b l ih =>
        intro a h1 h2
        rw [List.foldl_cons]
        apply ih
        · intro x hx
          rcases List.mem_cons.1 hx with rfl | hx
          · exact le_min (h1 a (by simp)) (h1 b (by simp))
          · exact h1 x (by simp [hx])
        · rcases List.mem_cons.1 h2 with rfl | h2
          · rw [min_eq_left (h1 b (by simp))]; simp
          · rcases List.mem_cons.1 h2 with rfl | h2
            · rw [min_eq_right (h1 a (by simp))]; simp
            · simp [h2]
    exact congrArg some (key l a h hc)

omit [IsStrictOrderedRing K] in
theorem maxK?_eq {l : List K} {c : K} (h : ∀ x ∈ l, x ≤ c) (hc : c ∈ l) : maxK? l = some c := by
  cases l with
  | nil => simp at hc
  | cons a l =>
    have key : ∀ (l : List K) (a : K), (∀ x ∈ a :: l, x ≤ c) → c ∈ a :: l → l.foldl max a = c := by
      intro l
      induction l with
      | nil => intro a h1 h2; simpa using (List.mem_singleton.1 h2).symm
      | cons b l ih =>
        intro a h1 h2
        rw [List.foldl_cons]
        apply ih
        · intro x hx
          rcases List.mem_cons.1 hx with rfl | hx
          · exact max_le (h1 a (by simp)) (h1 b (by simp))
          · exact h1 x (by simp [hx])
        · rcases List.mem_cons.1 h2 with rfl | h2
          · rw [max_eq_left (h1 b (by simp))]; simp
          · rcases List.mem_cons.1 h2 with rfl | h2
            · rw [max_eq_right (h1 a (by simp))]; simp
            · simp [h2]
    exact congrArg some (key l a h hc)

theorem whereClose_eq {f : V3 K → K} {coords : List (V3 K)} {c tol : K} (ht : 0 < tol)
    (h : ∀ p ∈ coords, |f p - c| < tol → f p = c) : whereClose (coords.map f) c tol = atCoord f coords c := by
  have key : ∀ (l : List (V3 K)) (s : Nat), (∀ p ∈ l, |f p - c| < tol → f p = c) →
      (((l.map f).zipIdx s).filter fun q => decide (|q.1 - c| < tol)).map Prod.snd =
        (List.range' s l.length).filter fun k => decide ((l[k - s]?).map f = some c) := by
    intro l
    induction l with
    | nil => intro s _; rfl
    | cons a l ih =>
      intro s hl
      have hrest : (List.range' (s + 1) l.length).filter (fun k => decide (((a :: l)[k - s]?).map f = some c)) =
          (List.range' (s + 1) l.length).filter fun k => decide ((l[k - (s + 1)]?).map f = some c) := by
        apply List.filter_congr
        intro k hk
        obtain ⟨hk1, -⟩ := List.mem_range'_1.1 hk
        rw [show k - s = (k - (s + 1)) + 1 by omega, List.getElem?_cons_succ]
      rw [List.map_cons, List.zipIdx_cons, List.length_cons, List.range'_succ, List.filter_cons, List.filter_cons, hrest,
        ← ih (s + 1) fun p hp => hl p (List.mem_cons_of_mem _ hp)]
      by_cases hac : f a = c
      · rw [if_pos (by simpa [hac] using ht), if_pos (by simp [hac])]
        rfl
      · rw [if_neg, if_neg]
        · simpa using hac
        · simp only [decide_eq_true_eq]
          exact fun h' => hac (hl a List.mem_cons_self h')
  unfold whereClose atCoord
  rw [List.range_eq_range']
  simpa using key coords 0 h

omit [IsStrictOrderedRing K] in
theorem mem_atCoord {f : V3 K → K} {coords : List (V3 K)} {c : K} {k : Nat} :
    k ∈ atCoord f coords c ↔ ∃ p, coords[k]? = some p ∧ f p = c := by
  unfold atCoord
  simp only [List.mem_filter, List.mem_range, decide_eq_true_eq, Option.map_eq_some_iff]
  constructor
  · rintro ⟨-, h⟩; exact h
  · rintro ⟨p, h1, h2⟩; exact ⟨(List.getElem?_eq_some_iff.1 h1).1, p, h1, h2⟩

omit [IsStrictOrderedRing K] in
theorem atCoord_paired {f : V3 K → K} {coords : List (V3 K)} {c c' : K} {v : V3 K}
    (h : ShiftedBy coords (atCoord f coords c) (atCoord f coords c') v) :
    Paired (atCoord f coords c) (atCoord f coords c') coords.length := by
  refine ⟨h.1, List.Nodup.filter _ List.nodup_range, ?_, ?_⟩ <;>
  · intro k hk
    obtain ⟨p, hp, -⟩ := mem_atCoord.1 hk
    exact (List.getElem?_eq_some_iff.1 hp).1

theorem tileBlocks_get {nX nY i j : Nat} (hi : i < nX) (hj : j < nY) : (tileBlocks nX nY)[i * nY + j]? = some (i, j) := by
  unfold tileBlocks
  rw [getElem?_flatMap_block (n := nY) (by simp) hj, List.getElem?_range hi]
  simp [hj]

theorem tileBlocks_length (nX nY : Nat) : (tileBlocks nX nY).length = nX * nY := by
  unfold tileBlocks
  rw [length_flatMap_block (n := nY) (by simp), List.length_range, Nat.mul_comm]

omit [LinearOrder K] [IsStrictOrderedRing K] in
theorem tileCoords_get {nX nY : Nat} {coords : List (V3 K)} {dx dy : K} {i j k : Nat} {p : V3 K} (hi : i < nX) (hj : j < nY)
    (hp : coords[k]? = some p) :
    (tileCoords nX nY coords dx dy)[tileNo nY coords.length i j k]? = some (p + ⟨i * dx, j * dy, 0⟩) := by
  have hk := (List.getElem?_eq_some_iff.1 hp).1
  unfold tileCoords tileNo
  rw [getElem?_flatMap_block (n := coords.length) (by simp) hk, tileBlocks_get hi hj]
  show (coords.map _)[k]? = _
  rw [List.getElem?_map, hp]
  simp only [Option.map_some]
  congr 1
  ext <;> simp

omit [LinearOrder K] [IsStrictOrderedRing K] in
theorem tileCoords_length (nX nY : Nat) (coords : List (V3 K)) (dx dy : K) :
    (tileCoords nX nY coords dx dy).length = nX * nY * coords.length := by
  unfold tileCoords
  rw [length_flatMap_block (n := coords.length) (by simp), tileBlocks_length, Nat.mul_comm]

theorem tileTopo_get {nX nY nP : Nat} {topo : Topo} {i j e : Nat} {row : List Nat} (hi : i < nX) (hj : j < nY)
    (he : topo[e]? = some row) :
    (tileTopo nX nY nP topo)[(i * nY + j) * topo.length + e]? = some (row.map fun n => tileNo nY nP i j n) := by
  have hel := (List.getElem?_eq_some_iff.1 he).1
  unfold tileTopo
  rw [getElem?_flatMap_block (n := topo.length) (by simp) hel, tileBlocks_get hi hj]
  show (topo.map _)[e]? = _
  rw [List.getElem?_map, he]
  simp only [Option.map_some]
  congr 1
  apply List.map_congr_left
  intro n _
  unfold tileNo
  omega

/-- Everything about the result, in terms of the map of the nodes. -/
theorem tile2d_spec {coords : List (V3 K)} {x0 x1 y0 y1 tol : K} (h : IsTile coords x0 x1 y0 y1 tol) {nX nY : Nat} {topo : Topo}
    {order : List (Nat × Nat)} (ho : (tileBlocks nX nY).Perm order) (hn : ∀ row ∈ topo, ∀ n ∈ row, n < coords.length) :
    ∃ (C : List (V3 K)) (T t : Topo) (imap ids : List Nat), tile2d order coords topo nX nY tol = some (C, T) ∧
      imap.length = nX * nY * coords.length ∧
      (∀ i j k, i < nX → j < nY → k < coords.length →
        (∀ l, 0 < j → PairOf (atCoord V3.y coords y0) (atCoord V3.y coords y1) k l →
          imap[tileNo nY coords.length i j k]? = some (tileNo nY coords.length i (j - 1) l)) ∧
        (∀ l, (j = 0 ∨ k ∉ atCoord V3.y coords y0) → 0 < i → PairOf (atCoord V3.x coords x0) (atCoord V3.x coords x1) k l →
          imap[tileNo nY coords.length i j k]? = some (tileNo nY coords.length (i - 1) j l)) ∧
        ((j = 0 ∨ k ∉ atCoord V3.y coords y0) → (i = 0 ∨ k ∉ atCoord V3.x coords x0) →
          imap[tileNo nY coords.length i j k]? = some (tileNo nY coords.length i j k))) ∧
      t = (tileTopo nX nY coords.length topo).map (List.map fun n => imap.getD n 0) ∧
      ids.Pairwise (· < ·) ∧ (∀ n, n ∈ ids ↔ UsesNode t n) ∧ C.length = ids.length ∧
      (∀ k n : Nat, ids[k]? = some n → C[k]? = (tileCoords nX nY coords (x1 - x0) (y1 - y0))[n]?) ∧
      T.map List.length = t.map List.length ∧ (∀ k, UsesNode T k ↔ k < C.length) ∧
      (∀ i j n, nodeAt t i j = some n → ∃ k, nodeAt T i j = some k ∧ C[k]? = (tileCoords nX nY coords (x1 - x0) (y1 - y0))[n]?) := by
  have bx0 : minK? (coords.map V3.x) = some x0 := minK?_eq (by simpa using h.minx.1) (by simpa using h.minx.2)
  have bx1 : maxK? (coords.map V3.x) = some x1 := maxK?_eq (by simpa using h.maxx.1) (by simpa using h.maxx.2)
  have by0 : minK? (coords.map V3.y) = some y0 := minK?_eq (by simpa using h.miny.1) (by simpa using h.miny.2)
  have by1 : maxK? (coords.map V3.y) = some y1 := maxK?_eq (by simpa using h.maxy.1) (by simpa using h.maxy.2)
  have w1 := whereClose_eq (f := V3.x) h.tol_pos fun p hp => (h.close p hp).1
  have w2 := whereClose_eq (f := V3.x) h.tol_pos fun p hp => (h.close p hp).2.1
  have w3 := whereClose_eq (f := V3.y) h.tol_pos fun p hp => (h.close p hp).2.2.1
  have w4 := whereClose_eq (f := V3.y) h.tol_pos fun p hp => (h.close p hp).2.2.2
  obtain ⟨imap, him, hlen, hspec⟩ := tileImap_spec
    (b := ⟨atCoord V3.x coords x0, atCoord V3.x coords x1, atCoord V3.y coords y0, atCoord V3.y coords y1⟩) (nP := coords.length) ho
    (fun _ => atCoord_paired h.shiftx) (fun _ => atCoord_paired h.shifty)
  -- every node of the blocks is covered
  have hcov : ∀ row ∈ tileTopo nX nY coords.length topo, ∀ n ∈ row, ∃ i j k, i < nX ∧ j < nY ∧ k < coords.length ∧
      n = tileNo nY coords.length i j k := by
    intro row hr n hnr
    obtain ⟨⟨i, j⟩, hij, hrow⟩ := List.mem_flatMap.1 hr
    obtain ⟨hi, hj⟩ := mem_tileBlocks.1 hij
    obtain ⟨r, hrt, rfl⟩ := List.mem_map.1 hrow
    obtain ⟨k, hk, rfl⟩ := List.mem_map.1 hnr
    exact ⟨i, j, k, hi, hj, hn r hrt k hk, by unfold tileNo; simp only; omega⟩
  have hremap : remapTopo (tileTopo nX nY coords.length topo) (.arr imap) =
      some ((tileTopo nX nY coords.length topo).map (List.map fun n => imap.getD n 0)) := by
    apply remapTopo_some
    intro row hr n hnr
    obtain ⟨i, j, k, hi, hj, hk, rfl⟩ := hcov row hr n hnr
    have hl : tileNo nY coords.length i j k < imap.length := by rw [hlen]; exact tileNo_lt hi hj hk
    simp [IMap.get?, List.getD_eq_getElem?_getD, hl]
  -- values of the map are nodes
  have hval : ∀ i j k, i < nX → j < nY → k < coords.length → ∃ v, imap[tileNo nY coords.length i j k]? = some v ∧
      v < nX * nY * coords.length := by
    intro i j k hi hj hk
    obtain ⟨s1, s2, s3⟩ := hspec i j k hi hj hk
    by_cases hy : 0 < j ∧ k ∈ atCoord V3.y coords y0
    · obtain ⟨l, hp, hl⟩ := (atCoord_paired h.shifty).exists hy.2
      exact ⟨_, s1 l hy.1 hp, tileNo_lt hi (by omega) ((atCoord_paired h.shifty).lt' l hl)⟩
    · have hy' : j = 0 ∨ k ∉ atCoord V3.y coords y0 := by
        by_cases h0 : j = 0
        · exact Or.inl h0
        · exact Or.inr fun hm => hy ⟨by omega, hm⟩
      by_cases hx : 0 < i ∧ k ∈ atCoord V3.x coords x0
      · obtain ⟨l, hp, hl⟩ := (atCoord_paired h.shiftx).exists hx.2
        exact ⟨_, s2 l hy' hx.1 hp, tileNo_lt (by omega) hj ((atCoord_paired h.shiftx).lt' l hl)⟩
      · have hx' : i = 0 ∨ k ∉ atCoord V3.x coords x0 := by
          by_cases h0 : i = 0
          · exact Or.inl h0
          · exact Or.inr fun hm => hx ⟨by omega, hm⟩
        exact ⟨_, s3 hy' hx', tileNo_lt hi hj hk⟩
  obtain ⟨C, T, ids, hd, d1, d2, d3, d4, d5, d6, d7⟩ := C04_detach (tileCoords nX nY coords (x1 - x0) (y1 - y0))
    ((tileTopo nX nY coords.length topo).map (List.map fun n => imap.getD n 0)) (by
      rintro n ⟨row, hr, hnr⟩
      obtain ⟨r, hrt, rfl⟩ := List.mem_map.1 hr
      obtain ⟨m, hm, rfl⟩ := List.mem_map.1 hnr
      obtain ⟨i, j, k, hi, hj, hk, rfl⟩ := hcov r hrt m hm
      obtain ⟨v, hv, hvl⟩ := hval i j k hi hj hk
      rw [tileCoords_length, List.getD_eq_getElem?_getD, hv]
      exact hvl)
  refine ⟨C, T, _, imap, ids, ?_, hlen, hspec, rfl, d1, d2, d3, d4, d5, d6, d7⟩
  unfold tile2d
  rw [bx0, bx1, by0, by1]
  simp only [Option.bind_some]
  rw [w1, w2, w3, w4, him]
  simp only [Option.bind_some]
  rw [hremap]
  exact hd

theorem pair_shift {f : V3 K → K} {coords : List (V3 K)} {c c' : K} {v : V3 K}
    (h : ShiftedBy coords (atCoord f coords c) (atCoord f coords c') v) {k l : Nat} {p : V3 K}
    (hp : PairOf (atCoord f coords c) (atCoord f coords c') k l) (hk : coords[k]? = some p) : coords[l]? = some (p + v) := by
  obtain ⟨t, h1, h2⟩ := hp
  obtain ⟨q, hq, -⟩ := mem_atCoord.1 (List.mem_of_getElem? h2)
  rw [hq, h.2 t k l p q h1 h2 hk hq]

/-- Cells keep their geometry: cell `e` of block `(i, j)` has the nodes of cell `e` shifted by `i` widths and `j` heights. The result
has no unused points. -/
theorem C56_cells {coords : List (V3 K)} {x0 x1 y0 y1 tol : K} (h : IsTile coords x0 x1 y0 y1 tol) {nX nY : Nat} {topo : Topo}
    {order : List (Nat × Nat)} (ho : (tileBlocks nX nY).Perm order) (hn : ∀ row ∈ topo, ∀ n ∈ row, n < coords.length) :
    ∃ (C : List (V3 K)) (T : Topo), tile2d order coords topo nX nY tol = some (C, T) ∧ T.length = nX * nY * topo.length ∧
      (∀ k, UsesNode T k ↔ k < C.length) ∧
      ∀ (i j e : Nat) (row : List Nat), i < nX → j < nY → topo[e]? = some row →
        ∃ row', T[(i * nY + j) * topo.length + e]? = some row' ∧ row'.length = row.length ∧
          ∀ (s n : Nat) (p : V3 K), row[s]? = some n → coords[n]? = some p →
            ∃ n', row'[s]? = some n' ∧ C[n']? = some (p + ⟨i * (x1 - x0), j * (y1 - y0), 0⟩) := by
  obtain ⟨C, T, t, imap, ids, h1, h2, h3, h4, h5, h6, h7, h8, h9, h10, h11⟩ := tile2d_spec h (nX := nX) (nY := nY) ho hn
  have hTl : T.length = t.length := by simpa using congrArg List.length h9
  refine ⟨C, T, h1, ?_, h10, ?_⟩
  · rw [hTl, h4, List.length_map]
    unfold tileTopo
    rw [length_flatMap_block (n := topo.length) (by simp), tileBlocks_length, Nat.mul_comm]
  · intro i j e row hi hj he
    have htt := tileTopo_get (nP := coords.length) hi hj he
    have ht : t[(i * nY + j) * topo.length + e]? = some ((row.map fun n => tileNo nY coords.length i j n).map fun n => imap.getD n 0) := by
      rw [h4, List.getElem?_map, htt]
      rfl
    have hTr : (i * nY + j) * topo.length + e < T.length := by rw [hTl]; exact (List.getElem?_eq_some_iff.1 ht).1
    have hlen : (T[(i * nY + j) * topo.length + e]).length = row.length := by
      have := congrArg (fun l => l[(i * nY + j) * topo.length + e]?) h9
      simp only [List.getElem?_map, ht, List.getElem?_eq_getElem hTr, Option.map_some, List.length_map] at this
      exact Option.some.inj this
    refine ⟨_, List.getElem?_eq_getElem hTr, hlen, fun s n p hs hp => ?_⟩
    have hk := (List.getElem?_eq_some_iff.1 hp).1
    have hat : nodeAt t ((i * nY + j) * topo.length + e) s = some (imap.getD (tileNo nY coords.length i j n) 0) := by
      unfold nodeAt
      rw [ht]
      simp [hs]
    obtain ⟨n', e1, e2⟩ := h11 _ _ _ hat
    refine ⟨n', ?_, ?_⟩
    · unfold nodeAt at e1
      rw [List.getElem?_eq_getElem hTr] at e1
      simpa using e1
    · rw [e2]
      obtain ⟨s1, s2, s3⟩ := h3 i j n hi hj hk
      by_cases hy : 0 < j ∧ n ∈ atCoord V3.y coords y0
      · obtain ⟨l, hpl, hl⟩ := (atCoord_paired h.shifty).exists hy.2
        rw [List.getD_eq_getElem?_getD, s1 l hy.1 hpl]
        show (tileCoords nX nY coords (x1 - x0) (y1 - y0))[tileNo nY coords.length i (j - 1) l]? = _
        rw [tileCoords_get hi (by omega) (pair_shift h.shifty hpl hp)]
        congr 1
        have hj1 : ((j - 1 : Nat) : K) = (j : K) - 1 := by rw [Nat.cast_sub hy.1]; simp
        ext <;> simp [hj1] <;> ring
      · have hy' : j = 0 ∨ n ∉ atCoord V3.y coords y0 := by
          by_cases h0 : j = 0
          · exact Or.inl h0
          · exact Or.inr fun hm => hy ⟨by omega, hm⟩
        by_cases hx : 0 < i ∧ n ∈ atCoord V3.x coords x0
        · obtain ⟨l, hpl, hl⟩ := (atCoord_paired h.shiftx).exists hx.2
          rw [List.getD_eq_getElem?_getD, s2 l hy' hx.1 hpl]
          show (tileCoords nX nY coords (x1 - x0) (y1 - y0))[tileNo nY coords.length (i - 1) j l]? = _
          rw [tileCoords_get (by omega) hj (pair_shift h.shiftx hpl hp)]
          congr 1
          have hi1 : ((i - 1 : Nat) : K) = (i : K) - 1 := by rw [Nat.cast_sub hx.1]; simp
          ext <;> simp [hi1] <;> ring
        · have hx' : i = 0 ∨ n ∉ atCoord V3.x coords x0 := by
            by_cases h0 : i = 0
            · exact Or.inl h0
            · exact Or.inr fun hm => hx ⟨by omega, hm⟩
          rw [List.getD_eq_getElem?_getD, s3 hy' hx']
          show (tileCoords nX nY coords (x1 - x0) (y1 - y0))[tileNo nY coords.length i j n]? = _
          rw [tileCoords_get hi hj hp]

/-- Integer steps within the width of a tile. -/
theorem step_cases {x x' x0 x1 : K} (h : x0 < x1) (hx : x0 ≤ x ∧ x ≤ x1) (hx' : x0 ≤ x' ∧ x' ≤ x1) {i i' : Nat}
    (e : x + i * (x1 - x0) = x' + i' * (x1 - x0)) (hlt : i < i') : i' = i + 1 ∧ x = x1 ∧ x' = x0 := by
  have hc : (i' : K) = i + ((i' - i : Nat) : K) := by rw [Nat.cast_sub hlt.le]; ring
  have hd : x - x' = ((i' - i : Nat) : K) * (x1 - x0) := by rw [hc] at e; linear_combination e
  have hpos : 0 < x1 - x0 := sub_pos.2 h
  have h1 : (i' - i : Nat) = 1 := by
    by_contra hne
    have h2 : (2 : K) ≤ ((i' - i : Nat) : K) := by
      have : 2 ≤ i' - i := by omega
      exact_mod_cast this
    nlinarith [hx.2, hx'.1]
  rw [h1] at hd
  refine ⟨by omega, ?_, ?_⟩
  · apply le_antisymm hx.2
    simp at hd
    linarith [hx'.1]
  · apply le_antisymm _ hx'.1
    simp at hd
    linarith [hx.2]

/-- Each point occurs once, if the tiles form one row or one column, or if the tile has no point in the corner `(x0, y1)`.
Missing: in the remaining case points are repeated at the common corners of four tiles (`C56_corner_false`). -/
theorem C56_partial {coords : List (V3 K)} {x0 x1 y0 y1 tol : K} (h : IsTile coords x0 x1 y0 y1 tol) (hx : x0 < x1) (hy : y0 < y1)
    (hd : coords.Nodup) {nX nY : Nat} {topo : Topo} {order : List (Nat × Nat)} (ho : (tileBlocks nX nY).Perm order)
    (hn : ∀ row ∈ topo, ∀ n ∈ row, n < coords.length)
    (hcorner : nX = 1 ∨ nY = 1 ∨ ∀ p ∈ coords, ¬ (p.x = x0 ∧ p.y = y1)) :
    ∃ (C : List (V3 K)) (T : Topo), tile2d order coords topo nX nY tol = some (C, T) ∧ C.Nodup := by
  obtain ⟨C, T, t, imap, ids, h1, h2, h3, h4, h5, h6, h7, h8, -, -, -⟩ := tile2d_spec h (nX := nX) (nY := nY) ho hn
  refine ⟨C, T, h1, ?_⟩
  have hbx : ∀ {k : Nat} {p : V3 K}, coords[k]? = some p → (x0 ≤ p.x ∧ p.x ≤ x1) ∧ (y0 ≤ p.y ∧ p.y ≤ y1) := fun hp =>
    ⟨⟨h.minx.1 _ (List.mem_of_getElem? hp), h.maxx.1 _ (List.mem_of_getElem? hp)⟩,
      ⟨h.miny.1 _ (List.mem_of_getElem? hp), h.maxy.1 _ (List.mem_of_getElem? hp)⟩⟩
  -- the used nodes are not mapped to other nodes
  have hused : ∀ n ∈ ids, ∃ i j k p, i < nX ∧ j < nY ∧ coords[k]? = some p ∧ n = tileNo nY coords.length i j k ∧
      (j = 0 ∨ p.y ≠ y0) ∧ (i = 0 ∨ p.x ≠ x0) := by
    intro n hnm
    obtain ⟨row, hr, hnr⟩ := (h6 n).1 hnm
    rw [h4] at hr
    obtain ⟨r, hrt, rfl⟩ := List.mem_map.1 hr
    obtain ⟨m, hm, rfl⟩ := List.mem_map.1 hnr
    obtain ⟨⟨i, j⟩, hij, hrow⟩ := List.mem_flatMap.1 hrt
    obtain ⟨hi, hj⟩ := mem_tileBlocks.1 hij
    obtain ⟨r0, hr0, rfl⟩ := List.mem_map.1 hrow
    obtain ⟨k, hk, rfl⟩ := List.mem_map.1 hm
    have hkl := hn r0 hr0 k hk
    have hp := List.getElem?_eq_getElem hkl
    set p := coords[k] with hpdef
    have hno : k + (i * nY + j) * coords.length = tileNo nY coords.length i j k := by unfold tileNo; omega
    obtain ⟨s1, s2, s3⟩ := h3 i j k hi hj hkl
    have hb := hbx hp
    simp only [hno]
    by_cases hyc : 0 < j ∧ k ∈ atCoord V3.y coords y0
    · obtain ⟨l, hpl, hl⟩ := (atCoord_paired h.shifty).exists hyc.2
      have hql := pair_shift h.shifty hpl hp
      obtain ⟨p', hp', hpy⟩ := mem_atCoord.1 hyc.2
      rw [hp] at hp'
      obtain rfl := Option.some.inj hp'
      refine ⟨i, j - 1, l, _, hi, by omega, hql, ?_, ?_, ?_⟩
      · rw [List.getD_eq_getElem?_getD, s1 l hyc.1 hpl]; rfl
      · right
        simp only [V3.add_y, hpy]
        linarith
      · -- the corner
        rcases hcorner with hc | hc | hc
        · left; omega
        · omega
        · right
          intro hxq
          refine hc _ (List.mem_of_getElem? hql) ⟨hxq, ?_⟩
          simp only [V3.add_y, hpy]
          ring
    · have hy' : j = 0 ∨ k ∉ atCoord V3.y coords y0 := by
        by_cases h0 : j = 0
        · exact Or.inl h0
        · exact Or.inr fun hm => hyc ⟨by omega, hm⟩
      have hyp : j = 0 ∨ p.y ≠ y0 := hy'.imp id fun hm hpy => hm (mem_atCoord.2 ⟨p, hp, hpy⟩)
      by_cases hxc : 0 < i ∧ k ∈ atCoord V3.x coords x0
      · obtain ⟨l, hpl, hl⟩ := (atCoord_paired h.shiftx).exists hxc.2
        have hql := pair_shift h.shiftx hpl hp
        obtain ⟨p', hp', hpx⟩ := mem_atCoord.1 hxc.2
        rw [hp] at hp'
        obtain rfl := Option.some.inj hp'
        refine ⟨i - 1, j, l, _, by omega, hj, hql, ?_, ?_, ?_⟩
        · rw [List.getD_eq_getElem?_getD, s2 l hy' hxc.1 hpl]; rfl
        · simpa using hyp
        · right
          simp only [V3.add_x, hpx]
          linarith
      · have hx' : i = 0 ∨ k ∉ atCoord V3.x coords x0 := by
          by_cases h0 : i = 0
          · exact Or.inl h0
          · exact Or.inr fun hm => hxc ⟨by omega, hm⟩
        refine ⟨i, j, k, p, hi, hj, hp, ?_, hyp, hx'.imp id fun hm hpx => hm (mem_atCoord.2 ⟨p, hp, hpx⟩)⟩
        rw [List.getD_eq_getElem?_getD, s3 hy' hx']; rfl
  -- such nodes at the same place are the same
  have hsame : ∀ {i j k i' j' k' : Nat} {p p' : V3 K}, coords[k]? = some p → coords[k']? = some p' →
      (j = 0 ∨ p.y ≠ y0) → (i = 0 ∨ p.x ≠ x0) → (j' = 0 ∨ p'.y ≠ y0) → (i' = 0 ∨ p'.x ≠ x0) →
      p + ⟨i * (x1 - x0), j * (y1 - y0), 0⟩ = p' + ⟨i' * (x1 - x0), j' * (y1 - y0), 0⟩ → i = i' ∧ j = j' ∧ k = k' := by
    intro i j k i' j' k' p p' hp hp' a1 a2 b1 b2 e
    have ex : p.x + i * (x1 - x0) = p'.x + i' * (x1 - x0) := by simpa using congrArg V3.x e
    have ey : p.y + j * (y1 - y0) = p'.y + j' * (y1 - y0) := by simpa using congrArg V3.y e
    have ez : p.z = p'.z := by simpa using congrArg V3.z e
    have hi : i = i' := by
      rcases lt_trichotomy i i' with hl | hl | hl
      · obtain ⟨c1, c2, c3⟩ := step_cases hx (hbx hp).1 (hbx hp').1 ex hl
        rcases b2 with b2 | b2
        · omega
        · exact absurd c3 b2
      · exact hl
      · obtain ⟨c1, c2, c3⟩ := step_cases hx (hbx hp').1 (hbx hp).1 ex.symm hl
        rcases a2 with a2 | a2
        · omega
        · exact absurd c3 a2
    have hj : j = j' := by
      rcases lt_trichotomy j j' with hl | hl | hl
      · obtain ⟨c1, c2, c3⟩ := step_cases hy (hbx hp).2 (hbx hp').2 ey hl
        rcases b1 with b1 | b1
        · omega
        · exact absurd c3 b1
      · exact hl
      · obtain ⟨c1, c2, c3⟩ := step_cases hy (hbx hp').2 (hbx hp).2 ey.symm hl
        rcases a1 with a1 | a1
        · omega
        · exact absurd c3 a1
    subst hi hj
    have hpp : p = p' := by
      ext
      · exact add_right_cancel ex
      · exact add_right_cancel ey
      · exact ez
    subst hpp
    exact ⟨rfl, rfl, (List.getElem?_inj (List.getElem?_eq_some_iff.1 hp).1 hd).1 (hp.trans hp'.symm)⟩
  rw [List.nodup_iff_getElem?_ne_getElem?]
  intro u v huv hv heq
  have hu' : u < ids.length := by omega
  have hv' : v < ids.length := by omega
  obtain ⟨i, j, k, p, a1, a2, a3, a4, a5, a6⟩ := hused _ (List.getElem_mem hu')
  obtain ⟨i', j', k', p', b1, b2, b3, b4, b5, b6⟩ := hused _ (List.getElem_mem hv')
  rw [h8 u _ (List.getElem?_eq_getElem hu'), h8 v _ (List.getElem?_eq_getElem hv'), a4, b4, tileCoords_get a1 a2 a3,
    tileCoords_get b1 b2 b3] at heq
  obtain ⟨rfl, rfl, rfl⟩ := hsame a3 b3 a5 a6 b5 b6 (Option.some.inj heq)
  have h9 : ids[u] < ids[v] := (List.pairwise_iff_getElem.1 h5) u v hu' hv' huv
  rw [a4, b4] at h9
  omega

end

/-- Points of a square tile, row by row. -/
def sqTile : List (V3 ℚ) := [⟨0, 0, 0⟩, ⟨1, 0, 0⟩, ⟨0, 1, 0⟩, ⟨1, 1, 0⟩]

/-- Translates of a list of pairs, to be decided. -/
theorem shiftedBy_of {coords : List (V3 ℚ)} {a b : List Nat} {v : V3 ℚ} (h : a.length = b.length)
    (h' : ∀ x ∈ a.zip b, ∀ p, coords[x.1]? = some p → ∀ q, coords[x.2]? = some q → q = p + v) : ShiftedBy coords a b v := by
  refine ⟨h, fun t k l p q h1 h2 h3 h4 => h' (k, l) (List.mem_of_getElem? (i := t) ?_) p h3 q h4⟩
  rw [List.getElem?_zip_eq_some]
  exact ⟨h1, h2⟩

/-- The square is a tile. -/
theorem sqTile_isTile : IsTile sqTile 0 1 0 1 (1 / 10) := by
  refine ⟨by norm_num, by simp [sqTile], by simp [sqTile], by simp [sqTile], by simp [sqTile], ?_, ?_, ?_⟩
  · intro p hp
    simp only [sqTile, List.mem_cons, List.not_mem_nil, or_false] at hp
    rcases hp with rfl | rfl | rfl | rfl <;> norm_num [abs]
  · have e0 : atCoord V3.x sqTile 0 = [0, 2] := by decide +kernel
    have e1 : atCoord V3.x sqTile 1 = [1, 3] := by decide +kernel
    rw [e0, e1]
    refine shiftedBy_of rfl ?_
    intro x hx p hp q hq
    simp only [List.zip_cons_cons, List.zip_nil_right, List.mem_cons, List.not_mem_nil, or_false] at hx
    rcases hx with rfl | rfl
    all_goals
      obtain rfl := Option.some.inj hp
      obtain rfl := Option.some.inj hq
      decide +kernel
  · have e0 : atCoord V3.y sqTile 0 = [0, 1] := by decide +kernel
    have e1 : atCoord V3.y sqTile 1 = [2, 3] := by decide +kernel
    rw [e0, e1]
    refine shiftedBy_of rfl ?_
    intro x hx p hp q hq
    simp only [List.zip_cons_cons, List.zip_nil_right, List.mem_cons, List.not_mem_nil, or_false] at hx
    rcases hx with rfl | rfl
    all_goals
      obtain rfl := Option.some.inj hp
      obtain rfl := Option.some.inj hq
      decide +kernel

/-- Two by two tiles: the point common to the four tiles occurs twice. -/
theorem C56_corner_false : ¬ ∀ (coords : List (V3 ℚ)) (x0 x1 y0 y1 tol : ℚ) (topo : Topo) (nX nY : Nat) (C : List (V3 ℚ)) (T : Topo),
    IsTile coords x0 x1 y0 y1 tol → coords.Nodup → x0 < x1 → y0 < y1 → (∀ row ∈ topo, ∀ n ∈ row, n < coords.length) →
    tile2d (tileBlocks nX nY) coords topo nX nY tol = some (C, T) → C.Nodup := by
  intro h
  have hr : tile2d (tileBlocks 2 2) sqTile [[0, 1, 3, 2]] 2 2 (1 / 10) = some
      ([⟨0, 0, 0⟩, ⟨1, 0, 0⟩, ⟨0, 1, 0⟩, ⟨1, 1, 0⟩, ⟨0, 2, 0⟩, ⟨1, 2, 0⟩, ⟨2, 0, 0⟩, ⟨1, 1, 0⟩, ⟨2, 1, 0⟩, ⟨2, 2, 0⟩],
        [[0, 1, 3, 2], [2, 3, 5, 4], [1, 6, 8, 3], [7, 8, 9, 5]]) := by decide +kernel
  have := h sqTile 0 1 0 1 (1 / 10) [[0, 1, 3, 2]] 2 2 _ _ sqTile_isTile (by decide +kernel) (by norm_num) (by norm_num)
    (by decide) hr
  exact absurd this (by decide +kernel)

/-- Tiles whose opposite sides match, but whose points are not numbered alike on opposite sides: a square numbered around.
In a column of two tiles the lower side of the second cell is twisted. -/
theorem C56_order_false : ¬ ∀ (coords : List (V3 ℚ)) (topo : Topo) (nY : Nat) (C : List (V3 ℚ)) (T : Topo),
    (∀ p ∈ coords, p.y = 0 → ∃ q ∈ coords, q = p + ⟨0, 1, 0⟩) → (∀ p ∈ coords, p.y = 1 → ∃ q ∈ coords, p = q + ⟨0, 1, 0⟩) →
    (∀ p ∈ coords, 0 ≤ p.y ∧ p.y ≤ 1) → (∀ row ∈ topo, ∀ n ∈ row, n < coords.length) →
    tile2d (tileBlocks 1 nY) coords topo 1 nY (1 / 10) = some (C, T) →
    ∀ (j e : Nat) (row row' : List Nat), j < nY → topo[e]? = some row → T[j * topo.length + e]? = some row' →
      row'.map (fun n => C[n]?) = row.map fun n => (coords[n]?).map fun p => p + ⟨0, (j : ℚ), 0⟩ := by
  intro h
  have hr : tile2d (tileBlocks 1 2) [(⟨0, 0, 0⟩ : V3 ℚ), ⟨1, 0, 0⟩, ⟨1, 1, 0⟩, ⟨0, 1, 0⟩] [[0, 1, 2, 3]] 1 2 (1 / 10) = some
      ([⟨0, 0, 0⟩, ⟨1, 0, 0⟩, ⟨1, 1, 0⟩, ⟨0, 1, 0⟩, ⟨1, 2, 0⟩, ⟨0, 2, 0⟩], [[0, 1, 2, 3], [2, 3, 4, 5]]) := by decide +kernel
  have := h [⟨0, 0, 0⟩, ⟨1, 0, 0⟩, ⟨1, 1, 0⟩, ⟨0, 1, 0⟩] [[0, 1, 2, 3]] 2 _ _ (by decide +kernel) (by decide +kernel)
    (by decide +kernel) (by decide) hr 1 0 _ _ (by decide) rfl rfl
  exact absurd this (by decide +kernel)

/-- Three tiles in a row. -/
example : tile2d (tileBlocks 3 1) sqTile [[0, 1, 3, 2]] 3 1 (1 / 10) = some
    ([⟨0, 0, 0⟩, ⟨1, 0, 0⟩, ⟨0, 1, 0⟩, ⟨1, 1, 0⟩, ⟨2, 0, 0⟩, ⟨2, 1, 0⟩, ⟨3, 0, 0⟩, ⟨3, 1, 0⟩],
      [[0, 1, 3, 2], [1, 4, 5, 3], [4, 6, 7, 5]]) := by decide +kernel

end PM
