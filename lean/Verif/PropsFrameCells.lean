import Verif.FrameCells
import Verif.PropsFrameCentre
import Verif.PropsTopo

/-!
# C116: the points that the cells of a block use
-/

namespace PM

section
variable {K : Type} [Field K]

/-! ## specification -/

/-- In the list of all blocks, `b` comes before the blocks beneath it. -/
def FirstOfItsOwn (m : List (FBlock K)) (b : FBlock K) : Prop :=
  ∃ pre post, m = pre ++ b :: post ∧ ∀ d ∈ pre, ¬ b.path <:+ d.path

omit [Field K] in
theorem ptsUnder_first {m : List (FBlock K)} {b : FBlock K} (h : FirstOfItsOwn m b) {q : FPts K} (hq : b.pts = some q) :
    ∃ rest, ptsUnder m b.path = (b.path, q) :: rest := by
  obtain ⟨pre, post, rfl, hpre⟩ := h
  unfold ptsUnder
  have h1 : pre.filter (fun d => b.path <:+ d.path) = [] := by
    rw [List.filter_eq_nil_iff]
    intro d hd
    simpa using hpre d hd
  rw [List.filter_append, h1, List.nil_append, List.filter_cons_of_pos (by simp), List.filterMap_cons_some (by rw [hq]; rfl)]
  exact ⟨_, rfl⟩

/-- The first points of a source are those stored in it. -/
theorem framedPoints_first {m : List (FBlock K)} {b : FBlock K} (h : FirstOfItsOwn m b) {q : FPts K} (hq : b.pts = some q)
    {F : CFrame K} (hF : frameOf m b.path = some F) (hO : F.Ortho) {c : FCloud K} (hc : framedPoints m b.path = some c) :
    c.frame = F ∧ ∃ r i, c.x = q.x ++ r ∧ c.inds = q.id ++ i := by
  obtain ⟨rest, hr⟩ := ptsUnder_first h hq
  unfold framedPoints at hc
  rw [hF, Option.bind_some, hr] at hc
  obtain ⟨l, h1, h2⟩ := Option.bind_eq_some_iff.1 hc
  rw [List.mapM_cons] at h1
  simp only [hF, Option.map_some, Option.bind_eq_bind, Option.bind_some] at h1
  obtain ⟨l', -, h4⟩ := Option.bind_eq_some_iff.1 h1
  obtain rfl : _ = l := Option.some.inj h4
  simp only [List.isEmpty_cons, Bool.false_eq_true, if_false, Option.some.injEq] at h2
  obtain rfl := h2
  refine ⟨rfl, l'.flatten, rest.flatMap fun b => b.2.id, ?_, rfl⟩
  rw [List.flatten_cons]
  rw [show vecShow F (some F) = id from funext fun x => vecShow_same hO ⟨rfl, rfl, rfl⟩ x, List.map_id]

/-- **C116** `points_involved`: exactly the points that the cells use, each once, by increasing numbers, where they are and with the
indices they have among the points of the source. -/
theorem C116_points {m : List (FBlock K)} (hm : (m.map FBlock.path).Nodup) {p : List Nat} {b : FBlock K} (hb : ClosestFPts m p b)
    {c : FCloud K} (hc : framedPoints m b.path = some c) (hl : c.inds.length = c.x.length) {t : Topo}
    (hin : ∀ n, UsesNode t n → n < c.x.length) :
    ∃ (d : FCloud K) (ns : List Nat), pointsInvolved m p t = some d ∧ ns.Pairwise (· < ·) ∧ (∀ n, n ∈ ns ↔ UsesNode t n) ∧ ns = uniqueIndices t ∧
      d.frame = c.frame ∧ d.x.length = ns.length ∧ d.inds.length = ns.length ∧
      (∀ k n : Nat, ns[k]? = some n → d.x[k]? = c.x[n]? ∧ (d.show none)[k]? = (c.show none)[n]? ∧ d.inds[k]? = c.inds[n]?) := by
  have hmem : ∀ n, n ∈ npUnique t.flatten ↔ UsesNode t n := fun n => by
    rw [mem_npUnique, List.mem_flatten]; rfl
  obtain ⟨x, hx, hxl, hxg⟩ := gather?_eq_some (a := c.x) (inds := npUnique t.flatten) fun n hn => hin n ((hmem n).1 hn)
  obtain ⟨i, hi, hil, hig⟩ := gather?_eq_some (a := c.inds) (inds := npUnique t.flatten) fun n hn => by
    rw [hl]; exact hin n ((hmem n).1 hn)
  refine ⟨⟨x, c.frame, i⟩, npUnique t.flatten, ?_, sorted_npUnique _, hmem, rfl, rfl, hxl, hil, fun k n hk => ⟨hxg k n hk, ?_, hig k n hk⟩⟩
  · simp [pointsInvolved, fSource_closest hm hb, hc, uniqueIndices, hx, hi]
  · simp only [FCloud.show, List.getElem?_map]
    rw [hxg k n hk]

/-- **C116** the points are those stored in the closest block with points, at their places in its frame, with their ids. -/
theorem C116_stored {m : List (FBlock K)} (hm : (m.map FBlock.path).Nodup) {p : List Nat} {b : FBlock K} (hb : ClosestFPts m p b)
    (hfirst : FirstOfItsOwn m b) {q : FPts K} (hq : b.pts = some q) {F : CFrame K} (hF : frameOf m b.path = some F) (hO : F.Ortho)
    {c : FCloud K} (hc : framedPoints m b.path = some c) (hid : q.id.length = q.x.length) {t : Topo}
    (hin : ∀ n, UsesNode t n → n < q.x.length) :
    ∃ (d : FCloud K) (ns : List Nat), pointsInvolved m p t = some d ∧ ns.Pairwise (· < ·) ∧ (∀ n, n ∈ ns ↔ UsesNode t n) ∧
      d.x.length = ns.length ∧ d.inds.length = ns.length ∧
      ∀ k n : Nat, ns[k]? = some n → (d.show none)[k]? = (q.x[n]?).map F.place ∧ d.inds[k]? = q.id[n]? := by
  obtain ⟨hf, r, i, hx, hi⟩ := framedPoints_first hfirst hq hF hO hc
  have hmem : ∀ n, n ∈ npUnique t.flatten ↔ UsesNode t n := fun n => by
    rw [mem_npUnique, List.mem_flatten]; rfl
  obtain ⟨x', hx', hxl, hxg⟩ := gather?_eq_some (a := c.x) (inds := npUnique t.flatten) fun n hn => by
    have := hin n ((hmem n).1 hn)
    rw [hx, List.length_append]; omega
  obtain ⟨i', hi', hil, hig⟩ := gather?_eq_some (a := c.inds) (inds := npUnique t.flatten) fun n hn => by
    have := hin n ((hmem n).1 hn)
    rw [hi, List.length_append]; omega
  refine ⟨⟨x', c.frame, i'⟩, npUnique t.flatten, ?_, sorted_npUnique _, hmem, hxl, hil, fun k n hk => ?_⟩
  · simp [pointsInvolved, fSource_closest hm hb, hc, uniqueIndices, hx', hi']
  · have hn := hin n ((hmem n).1 (List.mem_of_getElem? hk))
    constructor
    · simp only [FCloud.show, List.getElem?_map]
      rw [hxg k n hk, hx, List.getElem?_append_left hn, hf, show pcShow F none = F.place from funext (pcShow_none F)]
    · change i'[k]? = _
      rw [hig k n hk, hi, List.getElem?_append_left (by omega)]

/-- **C116** `detach_points_cells`: the cells keep their positions, no point is unused, and the points are the positions of
`points_involved`, one after the other. -/
theorem C116_detach {m : List (FBlock K)} (hm : (m.map FBlock.path).Nodup) {p : List Nat} {b : FBlock K} (hb : ClosestFPts m p b)
    {c : FCloud K} (hc : framedPoints m b.path = some c) (hl : c.inds.length = c.x.length) {t : Topo}
    (hin : ∀ n, UsesNode t n → n < c.x.length) :
    ∃ X T d, detachPointsCells m p t = some (X, T) ∧ pointsInvolved m p t = some d ∧ X = d.show none ∧
      T.map List.length = t.map List.length ∧ (∀ k, UsesNode T k ↔ k < X.length) ∧
      ∀ i j n, nodeAt t i j = some n → ∃ k, nodeAt T i j = some k ∧ X[k]? = (c.show none)[n]? := by
  obtain ⟨d, ns, h1, h2, h3, -, -, h6, -, h8⟩ := C116_points hm hb hc hl hin
  have hin' : ∀ n, UsesNode t n → n < (FCloud.show c none).length := fun n hn => by
    simpa [FCloud.show] using hin n hn
  obtain ⟨X, T, ids, d1, d2, d3, d4, d5, d6, d7, d8⟩ := C04_detach (FCloud.show c none) t hin'
  have hids : ids = ns := d2.eq_of_mem_iff h2 fun n => (d3 n).trans (h3 n).symm
  refine ⟨X, T, d, ?_, h1, ?_, d6, d7, d8⟩
  · simp only [detachPointsCells, fSource_closest hm hb, hc, Option.bind_some]
    exact d1
  · apply List.ext_getElem?
    intro k
    cases hk : ns[k]? with
    | none =>
      have hk' := List.getElem?_eq_none_iff.1 hk
      rw [List.getElem?_eq_none (by rw [d4, hids]; exact hk'), List.getElem?_eq_none (by simp [FCloud.show, h6]; exact hk')]
    | some n => rw [d5 k n (by rw [hids]; exact hk), (h8 k n hk).2.1]

end

/-- Beneath a turned mesh: one cell that uses two of three points. -/
def involvedMesh : List (FBlock ℚ) :=
  [⟨[], some turnedFrame, some ⟨[⟨0, 0, 0⟩, ⟨2, 0, 0⟩, ⟨2, 1, 0⟩], [7, 8, 9], none⟩, none⟩, ⟨[0], none, none, some [[2, 0]]⟩]

example : (pointsInvolved involvedMesh [0] [[2, 0]]).map (fun d => (d.x, d.inds)) = some ([⟨0, 0, 0⟩, ⟨2, 1, 0⟩], [7, 9]) := by
  decide +kernel

example : (detachPointsCells involvedMesh [0] [[2, 0]]).map (fun d => d.2) = some [[1, 0]] := by decide +kernel

example : ∃ b ∈ involvedMesh, ClosestFPts involvedMesh [0] b ∧ FirstOfItsOwn involvedMesh b :=
  ⟨_, List.mem_cons_self, ⟨List.mem_cons_self, rfl, ⟨[0], rfl⟩, by
    intro c hc h1 h2
    simp only [involvedMesh, List.mem_cons, List.not_mem_nil, or_false] at hc
    rcases hc with rfl | rfl
    · exact Nat.le_refl _
    · cases h1⟩, ⟨[], _, rfl, by simp⟩⟩

end PM
