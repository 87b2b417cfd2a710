import Verif.PropsAreas
import Verif.PropsCloud
import Verif.PropsCsrTopo

/-!
# C44, C71, C85: exactly when recorded indices, areas of cells and counts of the same matrix are right
-/

namespace PM

open V3

/-! ## C71: areas -/

/-- Specification: the corners lie on a line. -/
def Degenerate3 (t : V3 ℝ × V3 ℝ × V3 ℝ) : Prop := cross (t.2.1 - t.1) (t.2.2 - t.1) = 0

/-- **C71** a triangle is seen with its area exactly if its corners lie on a line, or if it lies in a plane normal to the direction and turns
counterclockwise around it. -/
theorem C71_triangle_exact {n : V3 ℝ} (hn : dot n n = 1) (t : V3 ℝ × V3 ℝ × V3 ℝ) :
    seenArea n t = spaceArea t ↔ Degenerate3 t ∨ LiesFlat n t := by
  constructor
  · intro h
    by_cases hd : Degenerate3 t
    · exact Or.inl hd
    right
    unfold seenArea spaceArea at h
    unfold Degenerate3 at hd
    unfold LiesFlat
    generalize hu : t.2.1 - t.1 = u at *
    generalize hv : t.2.2 - t.1 = v at *
    have e1 : dot n (cross u v) = Real.sqrt (dot (cross u v) (cross u v)) := by linarith
    have hp : 0 ≤ dot (cross u v) (cross u v) := by
      simp only [dot]
      nlinarith [mul_self_nonneg (cross u v).x, mul_self_nonneg (cross u v).y, mul_self_nonneg (cross u v).z]
    have e2 : dot n (cross u v) * dot n (cross u v) = dot (cross u v) (cross u v) := by
      rw [e1]; exact Real.mul_self_sqrt hp
    have e3 : dot (cross n (cross u v)) (cross n (cross u v)) = 0 := by
      have : dot (cross n (cross u v)) (cross n (cross u v)) =
          dot n n * dot (cross u v) (cross u v) - dot n (cross u v) * dot n (cross u v) := by
        simp only [dot, cross]; ring
      rw [this, hn, e2]; ring
    have hz : ∀ w : V3 ℝ, dot w w = 0 → w = 0 := by
      intro w hw
      simp only [dot] at hw
      have hx := mul_self_nonneg w.x
      have hy := mul_self_nonneg w.y
      have hz := mul_self_nonneg w.z
      ext
      · exact mul_self_eq_zero.1 (by linarith)
      · exact mul_self_eq_zero.1 (by linarith)
      · exact mul_self_eq_zero.1 (by linarith)
    have e4 := hz _ e3
    have e5 : dot n (cross u v) ≠ 0 := by
      intro h0
      rw [h0] at e2
      exact hd (hz _ (by rw [← e2]; ring))
    -- `cross n (cross u v) = u * (n·v) - v * (n·u)`
    have hx := congrArg V3.x e4
    have hy := congrArg V3.y e4
    have hz' := congrArg V3.z e4
    simp only [cross, V3.zero_x, V3.zero_y, V3.zero_z] at hx hy hz'
    refine ⟨?_, ?_, by rw [e1]; exact Real.sqrt_nonneg _⟩
    · have : dot n (cross u v) * dot n u = 0 := by
        simp only [dot, cross]
        linear_combination (u.y * n.z - u.z * n.y) * hx + (u.z * n.x - u.x * n.z) * hy + (u.x * n.y - u.y * n.x) * hz'
      exact (mul_eq_zero.1 this).resolve_left e5
    · have : dot n (cross u v) * dot n v = 0 := by
        simp only [dot, cross]
        linear_combination (v.y * n.z - v.z * n.y) * hx + (v.z * n.x - v.x * n.z) * hy + (v.x * n.y - v.y * n.x) * hz'
      exact (mul_eq_zero.1 this).resolve_left e5
  · rintro (h | h)
    · unfold Degenerate3 at h
      unfold seenArea spaceArea
      rw [h]
      simp [dot]
    · have := C71_flat hn (ts := [t]) (by simpa using h)
      simpa using this

theorem sum_le_eq {α : Type} {f g : α → ℝ} : ∀ l : List α, (∀ x ∈ l, f x ≤ g x) →
    ((l.map f).sum ≤ (l.map g).sum ∧ ((l.map f).sum = (l.map g).sum → ∀ x ∈ l, f x = g x)) := by
  intro l
  induction l with
  | nil => intro _; simp
  | cons a l ih =>
    intro h
    obtain ⟨h1, h2⟩ := ih fun x hx => h x (List.mem_cons_of_mem _ hx)
    have ha := h a List.mem_cons_self
    simp only [List.map_cons, List.sum_cons]
    refine ⟨by linarith, fun e x hx => ?_⟩
    rcases List.mem_cons.1 hx with rfl | hx
    · linarith
    · exact h2 (by linarith) x hx

/-- **C71** the area of a cell is the sum of the areas of its triangles exactly if all of them with corners not on a line lie in planes normal to
the third axis of the frame of the cell and turn counterclockwise around it; otherwise it is less. -/
theorem C71_exact {coords : List (V3 ℝ)} {topo : Topo} {Fs : List Frame} {trimap : List (List Nat)} {pts : List (List (V3 ℝ))}
    (hp : topo.mapM (fun row => row.mapM fun n => coords[n]?) = some pts) (hne : topo ≠ []) (hF : Fs.length = topo.length)
    (hI : ∀ F ∈ Fs, IsFrame F) (h3 : ∀ t ∈ trimap, t.length = 3)
    (hin : ∀ row ∈ topo, ∀ t ∈ trimap, ∀ q ∈ t, q < row.length) :
    ∃ A, areas2d coords topo Fs trimap = some A ∧ A.length = topo.length ∧
      ∀ (e : Nat) (P : List (V3 ℝ)) (F : Frame) (a : ℝ), pts[e]? = some P → Fs[e]? = some F → A[e]? = some a →
        a ≤ ((cutTris trimap P).map spaceArea).sum ∧
          (a = ((cutTris trimap P).map spaceArea).sum ↔ ∀ t ∈ cutTris trimap P, Degenerate3 t ∨ LiesFlat F.k t) := by
  obtain ⟨A, h1, h2, h4⟩ := C71_areas hp hne hF hI h3 hin
  refine ⟨A, h1, h2, fun e P F a hP hFe ha => ?_⟩
  rw [h4 e P F hP hFe] at ha
  obtain rfl := Option.some.inj ha
  have hk : dot F.k F.k = 1 := (hI F (List.mem_of_getElem? hFe)).kk
  obtain ⟨q1, q2⟩ := sum_le_eq (cutTris trimap P) (f := seenArea F.k) (g := spaceArea)
    fun t _ => le_trans (le_abs_self _) (C71_at_most hk t)
  refine ⟨q1, fun h t ht => (C71_triangle_exact hk t).1 (q2 h t ht), fun h => ?_⟩
  congr 1
  exact List.map_congr_left fun t ht => (C71_triangle_exact hk t).2 (h t ht)

/-- An upright triangle beside a flat one: seen from above the sum is less than the areas. -/
example : ¬ (Degenerate3 ((⟨0, 0, 0⟩, ⟨1, 0, 0⟩, ⟨0, 0, 1⟩) : V3 ℝ × V3 ℝ × V3 ℝ) ∨
    LiesFlat (⟨0, 0, 1⟩ : V3 ℝ) (⟨0, 0, 0⟩, ⟨1, 0, 0⟩, ⟨0, 0, 1⟩)) ∧
    LiesFlat (⟨0, 0, 1⟩ : V3 ℝ) (⟨0, 0, 0⟩, ⟨1, 0, 0⟩, ⟨0, 1, 0⟩) := by
  refine ⟨?_, by simp [LiesFlat, dot, cross]⟩
  rintro (h | h)
  · have := congrArg V3.y h
    simp [cross] at this
  · have := h.2.1
    simp [dot] at this

/-! ## C44: slices and masks of new clouds -/

theorem pyRange_one_length (a b : Int) : (pyRange a b 1).length = (b - a).toNat := by
  unfold pyRange
  rw [if_pos (by decide)]
  simp

theorem pyRange_one_get {a b : Int} {k : Nat} (h : (k : Int) < b - a) : (pyRange a b 1)[k]? = some (a + k) := by
  unfold pyRange
  rw [if_pos (by decide)]
  rw [List.getElem?_map, List.getElem?_range (by simp; omega)]
  simp

theorem get_slice {P : Type} {orig : List P} {s t : Option Int} {c : PCloud P}
    (h : PCloud.get ⟨orig, none⟩ (.slice s t none) = some c) :
    c.inds = some (pyRange (s.getD 0) (t.getD orig.length) 1) ∧
      c.arr.length = ((t.map (clampUp orig.length)).getD orig.length - (s.map (clampUp orig.length)).getD 0).toNat := by
  unfold PCloud.get newInds at h
  simp only [Option.bind_some, rawInds, Option.getD_none, Option.map_eq_some_iff] at h
  obtain ⟨a, ha, rfl⟩ := h
  refine ⟨rfl, ?_⟩
  simp only [arrGet, sliceInds, Option.getD_none] at ha
  rw [if_pos (by decide), Option.bind_some] at ha
  unfold npTake at ha
  rw [← mapM_length ha |>.symm, pyRange_one_length]

/-- **C44** slices with step one of a new cloud: the recorded indices are right exactly if the bounds are not negative and the second one is within the
cloud or not beyond the first one, or if the slice is empty and stays so when its bounds are taken as they are. -/
theorem C44_slice_exact {P : Type} (orig : List P) (s t : Option Int) {c : PCloud P}
    (h : PCloud.get ⟨orig, none⟩ (.slice s t none) = some c) :
    Tracks orig c ↔
      (0 ≤ s.getD 0 ∧ 0 ≤ t.getD orig.length ∧ (t.getD orig.length ≤ orig.length ∨ t.getD orig.length ≤ s.getD 0)) ∨
      (s.getD 0 < 0 ∧ t.getD orig.length ≤ s.getD 0) ∨
      (0 ≤ s.getD 0 ∧ t.getD orig.length < 0 ∧ t.getD orig.length + orig.length ≤ s.getD 0) := by
  obtain ⟨hi, hl⟩ := get_slice h
  have e1 : (t.map (clampUp orig.length)).getD orig.length = clampUp orig.length (t.getD orig.length) := by
    cases t with
    | none => simp [clampUp]
    | some b => rfl
  have e2 : (s.map (clampUp orig.length)).getD 0 = clampUp orig.length (s.getD 0) := by
    cases s with
    | none => simp [clampUp]
    | some b => rfl
  rw [e1, e2] at hl
  have hT : Tracks orig c ↔ (pyRange (s.getD 0) (t.getD orig.length) 1).length = c.arr.length ∧
      ∀ (i : Nat) (k : Int), (pyRange (s.getD 0) (t.getD orig.length) 1)[i]? = some k →
        0 ≤ k ∧ ∃ p, c.arr[i]? = some p ∧ orig[k.toNat]? = some p := by
    unfold Tracks
    rw [hi]
  have hg : GoodKey orig.length false (.slice s t none) → Tracks orig c := by
    intro hk
    obtain ⟨c', h1, -, -, h3⟩ := get_tracks (orig := orig) (c := ⟨orig, none⟩) rfl hk
    rw [h] at h1
    exact Option.some.inj h1 ▸ h3
  have hgk : 0 ≤ s.getD 0 → 0 ≤ t.getD orig.length → t.getD orig.length ≤ orig.length → GoodKey orig.length false (.slice s t none) := by
    intro ha hb hb'
    refine ⟨fun a e => by subst e; exact ha, fun b e => by subst e; exact ⟨hb, hb'⟩, fun d e => by cases e⟩
  rw [pyRange_one_length, hl] at hT
  generalize s.getD 0 = a at *
  generalize t.getD (orig.length : Int) = b at *
  have hempty : b ≤ a → ((b - a).toNat = (clampUp orig.length b - clampUp orig.length a).toNat) → Tracks orig c := by
    intro hab e
    refine hT.2 ⟨e, fun i k hk => ?_⟩
    rw [pyRange_empty (by decide) hab] at hk
    simp at hk
  constructor
  · intro hc
    obtain ⟨q1, q2⟩ := hT.1 hc
    by_cases hab : b ≤ a
    · unfold clampUp at q1
      split_ifs at q1 <;> omega
    · have ha := (q2 0 a (by have := pyRange_one_get (a := a) (b := b) (k := 0) (by simp; omega); simpa using this)).1
      obtain ⟨-, p, -, hp⟩ := q2 (b - a - 1).toNat (b - 1) (by
        rw [pyRange_one_get (by omega)]
        congr 1
        omega)
      have := (List.getElem?_eq_some_iff.1 hp).1
      exact Or.inl ⟨ha, by omega, Or.inl (by omega)⟩
  · rintro (⟨h1, h2, h3⟩ | ⟨h1, h2⟩ | ⟨h1, h2, h3⟩)
    · by_cases hb : b ≤ orig.length
      · exact hg (hgk h1 h2 hb)
      · refine hempty (by omega) ?_
        unfold clampUp
        split_ifs <;> omega
    · refine hempty h2 ?_
      unfold clampUp
      split_ifs <;> omega
    · refine hempty (by omega) ?_
      unfold clampUp
      split_ifs <;> omega

/-- **C44** masks of a new cloud: the recorded indices (all of them one) are right exactly if the cloud has no points, or if all points are kept and
coincide with the second one. -/
theorem C44_mask_exact {P : Type} (orig : List P) (l : List Bool) {c : PCloud P} (h : PCloud.get ⟨orig, none⟩ (.mask l) = some c) :
    Tracks orig c ↔ orig = [] ∨ ((∀ b ∈ l, b = true) ∧ ∃ p, orig[1]? = some p ∧ ∀ q ∈ orig, q = p) := by
  unfold PCloud.get newInds at h
  simp only [Option.bind_some, rawInds, Option.map_eq_some_iff, arrGet, npMask] at h
  obtain ⟨a, ha, rfl⟩ := h
  split_ifs at ha with hl
  obtain rfl := Option.some.inj ha
  have hlen : (orig.zip l).length = l.length := by simp; omega
  have hall : (∀ b ∈ l, b = true) → (orig.zip l).filterMap (fun x => if x.2 = true then some x.1 else none) = orig := by
    intro hb
    have : (orig.zip l).filterMap (fun x => if x.2 = true then some x.1 else none) = (orig.zip l).map Prod.fst := by
      rw [← List.filterMap_eq_map]
      apply List.filterMap_congr
      intro x hx
      rw [if_pos (hb _ (List.of_mem_zip hx).2)]
      rfl
    rw [this, List.map_fst_zip]
    omega
  unfold Tracks
  constructor
  · rintro ⟨h1, h2⟩
    rw [List.length_map, ← hlen] at h1
    have hsome := List.filterMap_length_eq_length.1 h1.symm
    have hb : ∀ x ∈ l, x = true := by
      intro x hx
      obtain ⟨i, hi, rfl⟩ := List.getElem_of_mem hx
      have := hsome (orig[i]'(by omega), l[i]) (by
        rw [List.mem_iff_getElem]
        exact ⟨i, by omega, List.getElem_zip⟩)
      by_contra hx
      simp [hx] at this
    simp only [hall hb] at h2
    have key : ∀ i (hi : i < orig.length), orig[1]? = some orig[i] := by
      intro i hi
      obtain ⟨-, p, h3, h4⟩ := h2 i 1 (by
        rw [List.getElem?_map, List.getElem?_eq_getElem (by omega)]
        simp [hb _ (List.getElem_mem (by omega : i < l.length))])
      rw [List.getElem?_eq_getElem hi] at h3
      rw [h3]
      exact h4
    cases horig : orig with
    | nil => exact Or.inl rfl
    | cons p r =>
      right
      rw [← horig]
      refine ⟨hb, orig[0]'(by rw [horig]; simp), key 0 _, fun q hq => ?_⟩
      obtain ⟨i, hi, rfl⟩ := List.getElem_of_mem hq
      have e1 := key i hi
      rw [key 0 (by omega)] at e1
      exact (Option.some.inj e1).symm
  · rintro (rfl | ⟨hb, p, hp, hq⟩)
    · have : l = [] := by simpa using hl
      subst this
      exact ⟨rfl, by simp⟩
    · simp only [hall hb]
      refine ⟨by simpa using hl, fun i k hk => ?_⟩
      rw [List.getElem?_map] at hk
      obtain ⟨b, hb1, rfl⟩ := Option.map_eq_some_iff.1 hk
      have hi := (List.getElem?_eq_some_iff.1 hb1).1
      rw [hb b (List.mem_of_getElem? hb1)]
      refine ⟨by decide, p, ?_, by simpa using hp⟩
      rw [List.getElem?_eq_getElem (by omega)]
      exact congrArg some (hq _ (List.getElem_mem _))

/-- `cloud[-1:-1]` (empty), `cloud[1:7]` of three points, `cloud[2:-1]` of three and of four points. -/
example : ((PCloud.get (⟨[10, 11, 12], none⟩ : PCloud Nat) (.slice (some (-1)) (some (-1)) none)).map fun c => (c.arr, c.inds)) =
      some ([], some []) ∧
    ((PCloud.get (⟨[10, 11, 12], none⟩ : PCloud Nat) (.slice (some 1) (some 7) none)).map fun c => (c.arr, c.inds)) =
      some ([11, 12], some [1, 2, 3, 4, 5, 6]) ∧
    ((PCloud.get (⟨[10, 11, 12], none⟩ : PCloud Nat) (.slice (some 2) (some (-1)) none)).map fun c => (c.arr, c.inds)) =
      some ([], some []) ∧
    ((PCloud.get (⟨[10, 11, 12, 13], none⟩ : PCloud Nat) (.slice (some 2) (some (-1)) none)).map fun c => (c.arr, c.inds)) =
      some ([12], some []) := by decide +kernel

/-! ## C85: counting twice -/

theorem map_idxOf_range {l : List Nat} {n : Nat} (h : ∀ x ∈ l, x < n) : l.map (List.range n).idxOf = l := by
  conv_rhs => rw [← List.map_id l]
  apply List.map_congr_left
  intro x hx
  have hx := h x hx
  have := List.nodup_range.idxOf_getElem x (by simpa using hx : x < (List.range n).length)
  rwa [List.getElem_range] at this

/-- **C85** counting the cells at the nodes of a csr topology once more: the matrix stays as it is from then on; the counts of the `k`-th node used are
found under `k`; they are those of the first call exactly if the numbers of the nodes have no gaps, and this is also exactly when the matrix of the caller
stays as it was. -/
theorem C85_twice_exact (topo : Topo) (c : Csr) (h : IsCsr topo c) (n₀ : Nat) (h₀ : UsesNode topo n₀) :
    ∃ (d d' : PyDict Nat Nat) (c' : Csr) (ids : List Nat), countDictCsr c = some (d, c') ∧ countDictCsr c' = some (d', c') ∧
      ids.Pairwise (· < ·) ∧ (∀ n, n ∈ ids ↔ UsesNode topo n) ∧ (∀ k, d'.get? k = ids[k]?.bind d.get?) ∧
      ((∀ n, d'.get? n = d.get? n) ↔ ∃ m, ∀ n, UsesNode topo n ↔ n ≤ m) ∧ (c' = c ↔ ∃ m, ∀ n, UsesNode topo n ↔ n ≤ m) := by
  obtain ⟨d, hd, hg⟩ := C05_count_dict topo
  obtain ⟨d', hd', hg'⟩ := C05_count_dict (regularize topo).1
  have huse : ∀ n, UsesNode topo n ↔ n ∈ topo.flatten := fun n => by
    unfold UsesNode; rw [List.mem_flatten]
  set u := npUnique topo.flatten with hu
  have hreg : (regularize topo).1 = topo.map (List.map u.idxOf) := regularize_fst topo
  have hflat : (regularize topo).1.flatten = topo.flatten.map u.idxOf := by rw [hreg, List.map_flatten]
  have hmem : ∀ k, k ∈ (regularize topo).1.flatten ↔ k < u.length := by
    intro k
    rw [hflat, List.mem_map]
    constructor
    · rintro ⟨x, hx, rfl⟩; exact List.idxOf_lt_length_of_mem (mem_npUnique.2 hx)
    · intro hk
      exact ⟨u[k], mem_npUnique.1 (List.getElem_mem hk), (nodup_npUnique _).idxOf_getElem _ hk⟩
  have hrange : npUnique (regularize topo).1.flatten = List.range u.length :=
    eq_of_sorted_of_mem (sorted_npUnique _) List.pairwise_lt_range fun x => by rw [mem_npUnique, hmem, List.mem_range]
  have hc1 : (regularizeCsr c).1.data = (regularize topo).1.flatten := h.regularize.data
  have hfix : (regularizeCsr (regularizeCsr c).1).1 = (regularizeCsr c).1 := by
    show (⟨(regularizeCsr c).1.data.map (npUnique (regularizeCsr c).1.data).idxOf, (regularizeCsr c).1.indptr⟩ : Csr) = _
    rw [hc1, hrange, map_idxOf_range fun x hx => (hmem x).1 hx, ← hc1]
  have hne : 0 < u.length := List.length_pos_of_mem (mem_npUnique.2 ((huse n₀).1 h₀))
  have hgap : (∀ n, n ∈ topo.flatten ↔ n < u.length) → ∃ m, ∀ n, UsesNode topo n ↔ n ≤ m := fun hh =>
    ⟨u.length - 1, fun n => by rw [huse, hh]; omega⟩
  have hgap' : (∃ m, ∀ n, UsesNode topo n ↔ n ≤ m) → u = List.range u.length := by
    rintro ⟨m, hm⟩
    have : u = List.range (m + 1) := eq_of_sorted_of_mem (sorted_npUnique _) List.pairwise_lt_range fun x => by
      rw [mem_npUnique, ← huse, hm, List.mem_range, Nat.lt_succ_iff]
    rw [this, List.length_range]
  have hcc : (∃ m, ∀ n, UsesNode topo n ↔ n ≤ m) → (regularizeCsr c).1 = c := by
    intro hm
    show (⟨c.data.map (npUnique c.data).idxOf, c.indptr⟩ : Csr) = c
    rw [h.data, ← hu, hgap' hm, map_idxOf_range fun x hx => ?_, ← h.data]
    have := hgap' hm
    rw [← List.mem_range, ← this]
    exact mem_npUnique.2 hx
  refine ⟨d, d', (regularizeCsr c).1, u, by rw [h.countDict, hd]; rfl, by rw [h.regularize.countDict, hd', hfix]; rfl, sorted_npUnique _,
    fun n => by rw [mem_npUnique, huse], fun k => ?_, ⟨fun hh => hgap fun n => ?_, fun hm n => ?_⟩, ⟨fun e => hgap fun n => ?_, hcc⟩⟩
  · rw [hg' k]
    by_cases hk : k < u.length
    · rw [if_pos ((hmem k).2 hk), List.getElem?_eq_getElem hk, Option.bind_some, hg, if_pos (mem_npUnique.1 (List.getElem_mem hk))]
      congr 2
      rw [hreg, List.map_map]
      apply List.map_congr_left
      intro row hrow
      simp only [Function.comp]
      rw [List.count_eq_countP, List.countP_map, List.count_eq_countP]
      apply List.countP_congr
      intro x hx
      have hxu : x ∈ u := mem_npUnique.2 (List.mem_flatten.2 ⟨row, hrow, hx⟩)
      simp only [Function.comp, beq_iff_eq]
      constructor
      · rintro rfl; exact (List.getElem_idxOf _).symm
      · rintro rfl; exact (nodup_npUnique _).idxOf_getElem _ hk
    · rw [if_neg fun hh => hk ((hmem k).1 hh), List.getElem?_eq_none (by omega)]; rfl
  · have := hh n
    rw [hg', hg] at this
    rw [← hmem]
    by_cases h1 : n ∈ topo.flatten <;> by_cases h2 : n ∈ (regularize topo).1.flatten <;> simp [h1, h2] at this ⊢
  · have e : (regularize topo).1.flatten = topo.flatten := by rw [← hc1, hcc hm, h.data]
    have e2 : (regularize topo).1 = topo := by
      rw [hreg]
      conv_rhs => rw [← List.map_id topo]
      apply List.map_congr_left
      intro row hrow
      rw [id]
      rw [hgap' hm]
      apply map_idxOf_range
      intro x hx
      rw [← List.mem_range, ← hgap' hm]
      exact mem_npUnique.2 (List.mem_flatten.2 ⟨row, hrow, hx⟩)
    rw [hg', hg, e2]
  · rw [← hmem, ← hc1, e, h.data]

example : countDictCsr ⟨[5, 7, 7, 9, 3], [0, 2, 5]⟩ = some ([(3, 1), (5, 1), (7, 2), (9, 1)], ⟨[1, 2, 2, 3, 0], [0, 2, 5]⟩) ∧
    countDictCsr ⟨[1, 2, 2, 3, 0], [0, 2, 5]⟩ = some ([(0, 1), (1, 1), (2, 2), (3, 1)], ⟨[1, 2, 2, 3, 0], [0, 2, 5]⟩) := by decide

end PM
