import Verif.PolyData
import Verif.TopoLemmas
import Verif.Spec
import Mathlib.Algebra.Order.Field.Rat
import Mathlib.Data.List.Range

/-!
# Properties of meshes made of blocks (C41, C42, C43)
-/

namespace PM

variable {P D : Type}

/-! ## Vocabulary -/

/-- `s` is the closest block at or above the path `p` that has points, and `q` are its points. -/
structure ClosestPts (m : List (MBlock P D)) (p : List Nat) (s : MBlock P D) (q : PData P D) : Prop where
  mem : s ∈ m
  pts : s.pts = some q
  above : s.path <:+ p
  closest : ∀ b ∈ m, b.pts.isSome → b.path <:+ p → b.path.length ≤ s.path.length

/-- A mesh tree: the root comes first and no two blocks have the same path. -/
structure MeshTree (m : List (MBlock P D)) : Prop where
  root : ∃ r rest, m = r :: rest ∧ r.path = []
  nodup : (m.map MBlock.path).Nodup

theorem blockAt_of_mem {m : List (MBlock P D)} (h : (m.map MBlock.path).Nodup) {b : MBlock P D} (hb : b ∈ m) :
    blockAt m b.path = some b := by
  induction m with
  | nil => simp at hb
  | cons a m ih =>
    rw [List.map_cons, List.nodup_cons] at h
    unfold blockAt
    rw [List.find?_cons]
    rcases List.mem_cons.1 hb with rfl | hb
    · simp
    · have : a.path ≠ b.path := fun e => h.1 (e ▸ List.mem_map_of_mem hb)
      simp only [this, decide_false]
      exact ih h.2 hb

theorem mem_of_blockAt {m : List (MBlock P D)} {p : List Nat} {b : MBlock P D} (h : blockAt m p = some b) :
    b ∈ m ∧ b.path = p := by
  unfold blockAt at h
  exact ⟨List.mem_of_find?_eq_some h, by simpa using List.find?_some h⟩

theorem ptsAt_some {m : List (MBlock P D)} {p : List Nat} {q : PData P D} (h : ptsAt m p = some q) :
    ∃ b ∈ m, b.path = p ∧ b.pts = some q := by
  unfold ptsAt at h
  cases hb : blockAt m p with
  | none => simp [hb] at h
  | some b =>
    rw [hb] at h
    exact ⟨b, (mem_of_blockAt hb).1, (mem_of_blockAt hb).2, by simpa using h⟩

theorem ptsAt_of_mem {m : List (MBlock P D)} (h : (m.map MBlock.path).Nodup) {b : MBlock P D} (hb : b ∈ m) :
    ptsAt m b.path = b.pts := by
  unfold ptsAt
  rw [blockAt_of_mem h hb]
  rfl

/-- The source of a block is the closest block with points above it. -/
theorem sourceOf_eq {m : List (MBlock P D)} (h : (m.map MBlock.path).Nodup) {p : List Nat} {s : MBlock P D}
    {q : PData P D} (hc : ClosestPts m p s q) : sourceOf m p = some q := by
  induction p with
  | nil =>
    have : s.path = [] := List.suffix_nil.1 hc.above
    unfold sourceOf
    rw [← this, ptsAt_of_mem h hc.mem, hc.pts]
  | cons k p ih =>
    unfold sourceOf
    rcases List.suffix_cons_iff.1 hc.above with e | e
    · rw [← e, ptsAt_of_mem h hc.mem, hc.pts]
    · cases hp : ptsAt m (k :: p) with
      | some q' =>
        obtain ⟨b, hb, hbp, hbq⟩ := ptsAt_some hp
        have h1 := hc.closest b hb (by simp [hbq]) (by rw [hbp])
        have h2 := e.length_le
        rw [hbp] at h1
        simp at h1
        omega
      | none =>
        exact ih ⟨hc.mem, hc.pts, e, fun b hb hs hbp => hc.closest b hb hs (hbp.trans (List.suffix_cons k p))⟩

/-- A block with points at or above a path has a closest one. -/
theorem exists_closest {m : List (MBlock P D)} (h : (m.map MBlock.path).Nodup) {p : List Nat} {q : PData P D}
    (hs : sourceOf m p = some q) : ∃ s, ClosestPts m p s q := by
  induction p with
  | nil =>
    obtain ⟨b, hb, hbp, hbq⟩ := ptsAt_some hs
    refine ⟨b, hb, hbq, by rw [hbp], fun b' _ _ hp => by rw [List.suffix_nil.1 hp]; simp⟩
  | cons k p ih =>
    unfold sourceOf at hs
    cases hp : ptsAt m (k :: p) with
    | some q' =>
      rw [hp] at hs
      obtain ⟨b, hb, hbp, hbq⟩ := ptsAt_some hp
      have : q' = q := by simpa using hs
      subst this
      exact ⟨b, hb, hbq, by rw [hbp], fun b' _ _ hb' => by rw [hbp]; exact hb'.length_le⟩
    | none =>
      rw [hp] at hs
      obtain ⟨s, h1, h2, h3, h4⟩ := ih hs
      refine ⟨s, h1, h2, h3.trans (List.suffix_cons k p), fun b hb hbs hbp => ?_⟩
      rcases List.suffix_cons_iff.1 hbp with e | e
      · rw [← e, ptsAt_of_mem h hb] at hp
        rw [hp] at hbs
        cases hbs
      · exact h4 b hb hbs e

theorem closest_unique {m : List (MBlock P D)} (h : (m.map MBlock.path).Nodup) {p : List Nat} {s t : MBlock P D}
    {q r : PData P D} (hs : ClosestPts m p s q) (ht : ClosestPts m p t r) : s = t ∧ q = r := by
  have h1 := hs.closest t ht.mem (by simp [ht.pts]) ht.above
  have h2 := ht.closest s hs.mem (by simp [hs.pts]) hs.above
  have h3 : s.path = t.path :=
    (List.suffix_of_suffix_length_le hs.above ht.above h2).eq_of_length (by omega)
  have h4 : s = t := by
    have := blockAt_of_mem h hs.mem
    rw [h3, blockAt_of_mem h ht.mem] at this
    exact (Option.some.inj this).symm
  subst h4
  exact ⟨rfl, Option.some.inj (hs.pts.symm.trans ht.pts)⟩

/-! ## C41 standard form -/

/-- A block with numbered points in root coordinates. -/
def renum (root : Option (Fr P)) (k : Nat) (b : MBlock P D) (q : PData P D) : MBlock P D :=
  { b with pts := some ⟨q.x.map (b.frame.shown root), List.range' k q.x.length, q.fields⟩ }

theorem renum_pts (root : Option (Fr P)) (k : Nat) (b : MBlock P D) (q : PData P D) :
    (renum root k b q).pts = some ⟨q.x.map (b.frame.shown root), List.range' k q.x.length, q.fields⟩ := rfl

/-- The mesh after the first loop. -/
def numbered (root : Option (Fr P)) : Nat → List (MBlock P D) → List (MBlock P D)
  | _, [] => []
  | next, b :: bs => match b.pts with
    | none => b :: numbered root next bs
    | some q => renum root next b q ::
        numbered root (next + q.x.length) bs

theorem stdNumber_eq {root : Option (Fr P)} {m : List (MBlock P D)} (h : ∀ b ∈ m, ∀ q, b.pts = some q → q.x.length ≠ 1)
    (next : Nat) : stdNumber root next m = some (numbered root next m) := by
  induction m generalizing next with
  | nil => rfl
  | cons b m ih =>
    have ih' := fun next => ih (fun b hb => h b (List.mem_cons_of_mem _ hb)) next
    unfold stdNumber numbered
    cases hq : b.pts with
    | none => simp only [ih']; rfl
    | some q =>
      have hl : freshIds next q.x.length = some (List.range' next q.x.length) := by
        unfold freshIds
        rw [if_neg (h b List.mem_cons_self q hq)]
      simp only [ih', stdPoints, hl]
      rfl

theorem numbered_path (root : Option (Fr P)) (next : Nat) (m : List (MBlock P D)) :
    (numbered root next m).map MBlock.path = m.map MBlock.path := by
  induction m generalizing next with
  | nil => rfl
  | cons b m ih =>
    unfold numbered
    cases hq : b.pts with
    | none => simp [ih]
    | some q => simp [ih, renum]

theorem allPts_cons_none {b : MBlock P D} {m : List (MBlock P D)} (h : b.pts = none) : allPts (b :: m) = allPts m := by
  simp [allPts, List.filterMap_cons, h]

theorem allPts_cons_some {b : MBlock P D} {m : List (MBlock P D)} {q : PData P D} (h : b.pts = some q) :
    allPts (b :: m) = q :: allPts m := by
  simp [allPts, List.filterMap_cons, h]

theorem mem_allPts {m : List (MBlock P D)} {q : PData P D} : q ∈ allPts m ↔ ∃ b ∈ m, b.pts = some q := by
  simp [allPts]

theorem fieldOr_length {dflt : D} {f : Nat} {q : PData P D} (h : ∀ d, q.fields f = some d → d.length = q.x.length) :
    (fieldOr dflt f q).length = q.x.length := by
  unfold fieldOr
  cases hf : q.fields f with
  | none => simp
  | some d => simpa using h d hf

theorem numbered_ids (root : Option (Fr P)) (next : Nat) (m : List (MBlock P D)) :
    (allPts (numbered root next m)).flatMap PData.id =
      List.range' next ((allPts (numbered root next m)).flatMap PData.x).length := by
  induction m generalizing next with
  | nil => rfl
  | cons b m ih =>
    unfold numbered
    cases hq : b.pts with
    | none => simp only [allPts_cons_none hq]; exact ih next
    | some q =>
      simp only [allPts_cons_some (renum_pts root next b q), List.flatMap_cons,
        List.length_append, List.length_map]
      rw [ih, List.range'_append_1]

/-- Where the points of a block are found. -/
theorem numbered_spec {root : Option (Fr P)} {m : List (MBlock P D)}
    (hf : ∀ b ∈ m, ∀ q, b.pts = some q → ∀ f d, q.fields f = some d → d.length = q.x.length) (next : Nat) (dflt : Nat → D)
    {i : Nat} {b : MBlock P D} {q : PData P D} (hi : m[i]? = some b) (hq : b.pts = some q) :
    ∃ o, (numbered root next m)[i]? = some (renum root (next + o) b q) ∧ (i = 0 → o = 0) ∧
      (∀ n, n < q.x.length → o + n < ((allPts (numbered root next m)).flatMap PData.x).length) ∧
      ∀ n, n < q.x.length →
        ((allPts (numbered root next m)).flatMap PData.x)[o + n]? = (q.x[n]?).map (b.frame.shown root) ∧
        ∀ f, ((allPts (numbered root next m)).flatMap (fieldOr (dflt f) f))[o + n]? = (fieldOr (dflt f) f q)[n]? := by
  induction m generalizing next i with
  | nil => simp at hi
  | cons a m ih =>
    have hf' : ∀ b ∈ m, ∀ q, b.pts = some q → ∀ f d, q.fields f = some d → d.length = q.x.length :=
      fun b hb => hf b (List.mem_cons_of_mem _ hb)
    unfold numbered
    cases ha : a.pts with
    | none =>
      simp only [allPts_cons_none ha]
      cases i with
      | zero =>
        simp at hi
        subst hi
        simp [ha] at hq
      | succ i =>
        obtain ⟨o, h1, _, h2, h3⟩ := ih hf' next (by simpa using hi)
        exact ⟨o, by simpa using h1, by simp, h2, h3⟩
    | some r =>
      simp only [allPts_cons_some (renum_pts root next a r), List.flatMap_cons]
      cases i with
      | zero =>
        simp at hi
        subst hi
        have : r = q := Option.some.inj (ha.symm.trans hq)
        subst this
        refine ⟨0, by simp, by simp, fun n hn => by simp; omega, fun n hn => ⟨?_, fun f => ?_⟩⟩
        · rw [Nat.zero_add, List.getElem?_append_left (by simpa using hn), List.getElem?_map]
        · have hl := fieldOr_length (dflt := dflt f) (hf a List.mem_cons_self r hq f)
          have e : fieldOr (dflt f) f ⟨r.x.map (a.frame.shown root), List.range' next r.x.length, r.fields⟩ =
              fieldOr (dflt f) f r := by
            unfold fieldOr
            simp
          rw [e, Nat.zero_add, List.getElem?_append_left (by omega)]
      | succ i =>
        obtain ⟨o, h1, _, h2, h3⟩ := ih hf' (next + r.x.length) (by simpa using hi)
        refine ⟨r.x.length + o, by simpa [Nat.add_assoc] using h1, by simp, fun n hn => ?_, fun n hn => ⟨?_, fun f => ?_⟩⟩
        · have := h2 n hn
          simp only [List.length_append, List.length_map]
          omega
        · rw [List.getElem?_append_right (by simp; omega), List.length_map,
            show r.x.length + o + n - r.x.length = o + n by omega]
          exact (h3 n hn).1
        · have hl := fieldOr_length (dflt := dflt f) (hf a List.mem_cons_self r ha f)
          have e : fieldOr (dflt f) f ⟨r.x.map (a.frame.shown root), List.range' next r.x.length, r.fields⟩ =
              fieldOr (dflt f) f r := by
            unfold fieldOr
            simp
          rw [e, List.getElem?_append_right (by omega), hl, show r.x.length + o + n - r.x.length = o + n by omega]
          exact (h3 n hn).2 f

theorem numbered_none {root : Option (Fr P)} {m : List (MBlock P D)} (next : Nat) {i : Nat} {b : MBlock P D}
    (hi : m[i]? = some b) (hq : b.pts = none) : (numbered root next m)[i]? = some b := by
  induction m generalizing next i with
  | nil => simp at hi
  | cons a m ih =>
    unfold numbered
    cases i with
    | zero =>
      simp at hi
      subst hi
      simp [hq]
    | succ i =>
      cases ha : a.pts with
      | none => simpa using ih next (by simpa using hi)
      | some r => simpa using ih (next + r.x.length) (by simpa using hi)

theorem numbered_length (root : Option (Fr P)) (next : Nat) (m : List (MBlock P D)) :
    (numbered root next m).length = m.length := by
  have := congrArg List.length (numbered_path root next m)
  simpa using this

/-- Fields that occur. -/
theorem numbered_known (root : Option (Fr P)) (next : Nat) (m : List (MBlock P D)) (f : Nat) :
    (∃ q ∈ allPts (numbered root next m), (q.fields f).isSome) ↔ ∃ q ∈ allPts m, (q.fields f).isSome := by
  induction m generalizing next with
  | nil => simp [numbered, allPts]
  | cons a m ih =>
    unfold numbered
    cases ha : a.pts with
    | none => simp only [allPts_cons_none ha]; exact ih next
    | some r =>
      simp only [allPts_cons_some ha, allPts_cons_some (renum_pts root next a r),
        List.exists_mem_cons_iff]
      rw [ih]

/-- The loop over the cell blocks. -/
theorem stdCells_spec {m : List (MBlock P D)} {dflt : Nat → D} {known : Nat → Bool} {bs : List (MBlock P D)}
    (h : ∀ b ∈ bs, ∀ c, b.cells = some c → ∃ q t, sourceOf m b.path = some q ∧ rewire c.topo (.arr q.id) false = some t)
    (next : Nat) :
    ∃ r, stdCells m dflt known next bs = some r ∧ r.length = bs.length ∧
      r.map MBlock.path = bs.map MBlock.path ∧ r.map MBlock.pts = bs.map MBlock.pts ∧
      (allCells r).flatMap CData.id = List.range' next ((allCells bs).flatMap CData.topo).length ∧
      ∀ (i : Nat) (b : MBlock P D) (c : CData D), bs[i]? = some b → b.cells = some c →
        ∃ (b' : MBlock P D) (c' : CData D) (q : PData P D), r[i]? = some b' ∧ b'.path = b.path ∧
        b'.cells = some c' ∧ sourceOf m b.path = some q ∧ rewire c.topo (.arr q.id) false = some c'.topo ∧
        ∀ f, c'.fields f = if known f then some ((c.fields f).getD (List.replicate c.topo.length (dflt f))) else none := by
  induction bs generalizing next with
  | nil => exact ⟨[], rfl, rfl, rfl, rfl, rfl, by simp⟩
  | cons a bs ih =>
    have ih' := fun next => ih (fun b hb => h b (List.mem_cons_of_mem _ hb)) next
    unfold stdCells
    cases ha : a.cells with
    | none =>
      obtain ⟨r, h1, h2, h3, h4, h6, h5⟩ := ih' next
      refine ⟨a :: r, by simp [h1], by simp [h2], by simp [h3], by simp [h4], ?_, ?_⟩
      · simpa [allCells, List.filterMap_cons, ha] using h6
      · intro i b c hi hc
        cases i with
        | zero =>
          simp at hi
          subst hi
          simp [ha] at hc
        | succ i => simpa using h5 i b c (by simpa using hi) hc
    | some c0 =>
      obtain ⟨q, t, hq, ht⟩ := h a List.mem_cons_self c0 ha
      obtain ⟨r, h1, h2, h3, h4, h6, h5⟩ := ih' (next + c0.topo.length)
      simp only [hq, Option.bind_some, ht, h1, Option.map_some]
      refine ⟨_, rfl, by simp [h2], by simp [h3], by simp [h4], ?_, ?_⟩
      · simp only [allCells, List.filterMap_cons, ha, List.flatMap_cons, List.length_append] at h6 ⊢
        rw [h6, List.range'_append_1]
      · intro i b c hi hc
        cases i with
        | zero =>
          simp at hi
          subst hi
          have : c0 = c := Option.some.inj (ha.symm.trans hc)
          subst this
          exact ⟨_, _, q, rfl, rfl, rfl, hq, ht, fun f => rfl⟩
        | succ i => simpa using h5 i b c (by simpa using hi) hc

theorem setRoot_path (q : PData P D) (m : List (MBlock P D)) : (setRoot q m).map MBlock.path = m.map MBlock.path := by
  unfold setRoot
  rw [List.map_map]
  apply List.map_congr_left
  intro b _
  simp only [Function.comp]
  split <;> rfl

theorem root_index {m : List (MBlock P D)} (h : MeshTree m) {i : Nat} {b : MBlock P D} (hi : m[i]? = some b) :
    i = 0 ↔ b.path = [] := by
  obtain ⟨r, rest, rfl, hr⟩ := h.root
  have hn := h.nodup
  rw [List.map_cons, List.nodup_cons] at hn
  cases i with
  | zero => simp at hi; subst hi; simp [hr]
  | succ i =>
    simp only [Nat.succ_ne_zero, false_iff]
    intro e
    apply hn.1
    rw [hr, ← e]
    exact List.mem_map_of_mem (List.mem_of_getElem? (by simpa using hi))

/-- What `to_standard_form` does, frames included: the node of a cell that lay at `x` lies at the place whose ambient
coordinates are those of `x` in the frame of its block; point and cell data are carried along and filled with defaults; all
blocks refer to the points of the root; cells are numbered consecutively. -/
theorem C41_general {root : Option (Fr P)} (hroot : ∀ F, root = some F → F.Valid) (dpf dcf : Nat → D)
    {m : List (MBlock P D)} (hm : MeshTree m) (h1 : ∀ b ∈ m, ∀ q, b.pts = some q → q.x.length ≠ 1)
    (hf : ∀ b ∈ m, ∀ q, b.pts = some q → ∀ f d, q.fields f = some d → d.length = q.x.length)
    (hc : ∀ b ∈ m, ∀ c, b.cells = some c → ∃ s q, ClosestPts m b.path s q ∧ ∀ n ∈ c.topo.flatten, n < q.x.length) :
    ∃ m' r Q, toStandardForm root dpf dcf m = some m' ∧ m'.map MBlock.path = m.map MBlock.path ∧
      m'[0]? = some r ∧ r.pts = some Q ∧ (∀ p, ∀ s q, ClosestPts m' p s q → s = r ∧ q = Q) ∧
      (allCells m').flatMap CData.id = List.range (meshTopo m).length ∧
      (∀ f, (Q.fields f).isSome ↔ ∃ b ∈ m, ∃ q, b.pts = some q ∧ (q.fields f).isSome) ∧
      ∀ (i : Nat) (b : MBlock P D) (c : CData D) (s : MBlock P D) (q : PData P D), m[i]? = some b → b.cells = some c →
        ClosestPts m b.path s q → ∃ (b' : MBlock P D) (c' : CData D), m'[i]? = some b' ∧ b'.cells = some c' ∧ c'.topo.map List.length = c.topo.map List.length ∧
        (∀ k j n, nodeAt c.topo k j = some n → ∃ n' x, nodeAt c'.topo k j = some n' ∧ q.x[n]? = some x ∧
          Q.x[n']? = some (s.frame.toAmb x) ∧
          ∀ f d, Q.fields f = some d → d[n']? = match q.fields f with
            | some e => e[n]?
            | none => some (dpf f)) ∧
        ∀ f, (∀ d, c.fields f = some d → c'.fields f = some d) ∧
          (c.fields f = none → (∃ b2 ∈ m, ∃ c2, b2.cells = some c2 ∧ (c2.fields f).isSome) →
            c'.fields f = some (List.replicate c.topo.length (dcf f))) := by
  have hne : m ≠ [] := by obtain ⟨r, rest, e, _⟩ := hm.root; simp [e]
  set m1 := numbered root 0 m with hm1
  set Q := stdMerged root dpf m1 with hQ
  set m2 := setRoot Q m1 with hm2
  have hp2 : m2.map MBlock.path = m.map MBlock.path := by rw [hm2, setRoot_path, hm1, numbered_path]
  have hn2 : (m2.map MBlock.path).Nodup := by rw [hp2]; exact hm.nodup
  have hcell1 : ∀ (i : Nat) (b : MBlock P D), m[i]? = some b →
      ∃ b1, m1[i]? = some b1 ∧ b1.path = b.path ∧ b1.cells = b.cells ∧ b1.pts.isSome = b.pts.isSome := by
    intro i b hi
    cases hq : b.pts with
    | none => exact ⟨b, numbered_none 0 hi hq, rfl, rfl, by rw [hq]⟩
    | some q =>
      obtain ⟨o, h, _⟩ := numbered_spec (root := root) hf 0 dpf hi hq
      exact ⟨_, h, rfl, rfl, rfl⟩
  have hget2 : ∀ (i : Nat) (b1 : MBlock P D), m1[i]? = some b1 →
      m2[i]? = some (if b1.path = [] then { b1 with pts := some Q } else b1) := by
    intro i b1 h
    simp [hm2, setRoot, List.getElem?_map, h]
  have hl1 : m1.length = m.length := by rw [hm1]; exact numbered_length _ _ _
  -- indices of a source
  have hsrc : ∀ (p : List Nat) (s : MBlock P D) (q : PData P D), ClosestPts m p s q →
      ∃ o, (∃ q2, sourceOf m2 p = some q2 ∧ ∀ n, n < q.x.length → q2.id[n]? = some (o + n)) ∧
      ∀ n, n < q.x.length → ((allPts m1).flatMap PData.x)[o + n]? = (q.x[n]?).map (s.frame.shown root) ∧
        ∀ f, ((allPts m1).flatMap (fieldOr (dpf f) f))[o + n]? = (fieldOr (dpf f) f q)[n]? := by
    intro p s q hcl
    obtain ⟨i, hi⟩ := List.mem_iff_getElem?.1 hcl.mem
    obtain ⟨o, h3, h4, h5, h6⟩ := numbered_spec (root := root) hf 0 dpf hi hcl.pts
    refine ⟨o, ?_, h6⟩
    have h7 := hget2 i _ h3
    -- closest in m2
    have hcl2 : ∀ s2 q2, m2[i]? = some s2 → s2.path = s.path → s2.pts = some q2 → sourceOf m2 p = some q2 := by
      intro s2 q2 e1 e2 e3
      refine sourceOf_eq hn2 ⟨List.mem_of_getElem? e1, e3, by rw [e2]; exact hcl.above, ?_⟩
      intro b hb hbs hbp
      rw [e2]
      obtain ⟨k, hk⟩ := List.mem_iff_getElem?.1 hb
      have hkl : k < m.length := by
        have := (List.getElem?_eq_some_iff.1 hk).1
        rw [hm2, setRoot, List.length_map, hl1] at this
        exact this
      obtain ⟨b1, hb1, hb2, -, hb3⟩ := hcell1 k m[k] (List.getElem?_eq_getElem hkl)
      have hb4 := hget2 k b1 hb1
      rw [hk] at hb4
      by_cases hb5 : b1.path = []
      · rw [if_pos hb5] at hb4
        have : b.path = [] := by rw [Option.some.inj hb4]; exact hb5
        simp [this]
      · rw [if_neg hb5] at hb4
        have hb6 : b = b1 := Option.some.inj hb4
        subst hb6
        rw [hb2]
        exact hcl.closest _ (List.getElem_mem hkl) (hb3 ▸ hbs) (hb2 ▸ hbp)
    by_cases hs : s.path = []
    · have hi0 : i = 0 := (root_index hm hi).2 hs
      have ho := h4 hi0
      rw [if_pos (by exact hs)] at h7
      refine ⟨Q, hcl2 _ _ h7 rfl rfl, fun n hn => ?_⟩
      have h8 := h5 n hn
      have h9 : Q.id = List.range' 0 ((allPts m1).flatMap PData.x).length := numbered_ids root 0 m
      rw [h9, List.getElem?_range']
      · simp [ho]
      · rw [ho] at h8; simpa using h8
    · rw [if_neg (by exact hs)] at h7
      refine ⟨_, hcl2 _ _ h7 rfl rfl, fun n hn => ?_⟩
      simp only
      rw [List.getElem?_range' hn]
      simp
  -- the cells
  have hcells : ∀ b ∈ m2, ∀ c, b.cells = some c →
      ∃ q t, sourceOf m2 b.path = some q ∧ rewire c.topo (.arr q.id) false = some t := by
    intro b hb c hbc
    obtain ⟨k, hk⟩ := List.mem_iff_getElem?.1 hb
    have hkl : k < m.length := by
      have := (List.getElem?_eq_some_iff.1 hk).1
      rw [hm2, setRoot, List.length_map, hl1] at this
      exact this
    obtain ⟨b1, hb1, hb2, hb2c, hb3⟩ := hcell1 k m[k] (List.getElem?_eq_getElem hkl)
    have hb4 := hget2 k b1 hb1
    rw [hk] at hb4
    have hbp : b.path = m[k].path := by
      rw [Option.some.inj hb4, ← hb2]
      split <;> rfl
    have hbcc : b.cells = m[k].cells := by
      rw [Option.some.inj hb4, ← hb2c]
      split <;> rfl
    obtain ⟨s, q, hcl, hr⟩ := hc m[k] (List.getElem_mem hkl) c (hbcc ▸ hbc)
    obtain ⟨o, ⟨q2, h3, h4⟩, -⟩ := hsrc _ s q hcl
    refine ⟨q2, c.topo.map fun row => row.map fun n => o + n, by rw [hbp]; exact h3, ?_⟩
    exact remapTopo_some fun row hrow n hn => h4 n (hr n (List.mem_flatten.2 ⟨row, hrow, hn⟩))
  obtain ⟨r, h3, h4, h5, h6, h6', h7⟩ := stdCells_spec (dflt := dcf)
    (known := fun f => (allCells m).any fun c => (c.fields f).isSome) hcells 0
  have hfree : (stdFree r).map MBlock.path = m.map MBlock.path := by
    rw [← hp2, ← h5]
    unfold stdFree
    rw [List.map_map]
    apply List.map_congr_left
    intro b _
    simp only [Function.comp]
    split <;> rfl
  have hstd : toStandardForm root dpf dcf m = some (stdFree r) := by
    unfold toStandardForm
    rw [stdNumber_eq h1]
    simp only [Option.bind_some]
    rw [← hm1, ← hQ, ← hm2, h3]
    rfl
  -- the root
  obtain ⟨r0, rest, hr0, hrp⟩ := hm.root
  have hr0' : m[0]? = some r0 := by simp [hr0]
  obtain ⟨b1, hb1, hb1p, -, -⟩ := hcell1 0 r0 hr0'
  have hm20 := hget2 0 b1 hb1
  rw [if_pos (by rw [hb1p, hrp])] at hm20
  have hr1 : ∃ rr, r[0]? = some rr ∧ rr.path = [] ∧ rr.pts = some Q := by
    have hlen : 0 < r.length := by
      rw [h4, hm2, setRoot, List.length_map, hl1]
      exact List.length_pos_iff.2 hne
    refine ⟨r[0], List.getElem?_eq_getElem hlen, ?_, ?_⟩
    · have := congrArg (·[0]?) h5
      simp only [List.getElem?_map, List.getElem?_eq_getElem hlen, hm20, Option.map_some] at this
      rw [Option.some.inj this]
      show b1.path = []
      rw [hb1p, hrp]
    · have := congrArg (·[0]?) h6
      simp only [List.getElem?_map, List.getElem?_eq_getElem hlen, hm20, Option.map_some] at this
      exact Option.some.inj this
  obtain ⟨rr, hrr, hrrp, hrrq⟩ := hr1
  have hrr' : (stdFree r)[0]? = some rr := by
    simp [stdFree, List.getElem?_map, hrr, hrrp]
  have htopo2 : (allCells m2).flatMap CData.topo = (allCells m).flatMap CData.topo := by
    have : m2.map MBlock.cells = m.map MBlock.cells := by
      apply List.ext_getElem?
      intro k
      rw [List.getElem?_map, List.getElem?_map]
      cases hk : m[k]? with
      | none =>
        have : m.length ≤ k := List.getElem?_eq_none_iff.1 hk
        rw [List.getElem?_eq_none_iff.2 (by rw [hm2, setRoot, List.length_map, hl1]; exact this)]
      | some b =>
        obtain ⟨b1, e1, -, e2, -⟩ := hcell1 k b hk
        rw [hget2 k b1 e1]
        simp only [Option.map_some, ← e2]
        split <;> rfl
    have e : ∀ l : List (MBlock P D), allCells l = (l.map MBlock.cells).filterMap id := by
      intro l
      unfold allCells
      rw [List.filterMap_map]
      rfl
    rw [e, e, this]
  have hidfree : (allCells (stdFree r)).flatMap CData.id = (allCells r).flatMap CData.id := by
    have e : ∀ l : List (MBlock P D), allCells l = (l.map MBlock.cells).filterMap id := by
      intro l
      unfold allCells
      rw [List.filterMap_map]
      rfl
    rw [e, e]
    congr 2
    unfold stdFree
    rw [List.map_map]
    apply List.map_congr_left
    intro b _
    simp only [Function.comp]
    split <;> rfl
  refine ⟨stdFree r, rr, Q, hstd, hfree, hrr', hrrq, ?_, ?_, ?_, ?_⟩
  · intro p s q hs
    have hnodup : ((stdFree r).map MBlock.path).Nodup := by rw [hfree]; exact hm.nodup
    have hsp : s.path = [] := by
      have := hs.mem
      unfold stdFree at this
      rw [List.mem_map] at this
      obtain ⟨b, hb, rfl⟩ := this
      by_contra hne
      have hbp : b.path ≠ [] := by
        intro e
        apply hne
        rw [if_pos e, e]
      have := hs.pts
      rw [if_neg hbp] at this
      cases this
    have h8 := blockAt_of_mem hnodup hs.mem
    have h9 := blockAt_of_mem hnodup (List.mem_of_getElem? hrr')
    rw [hsp] at h8
    rw [hrrp, h8] at h9
    have := Option.some.inj h9
    subst this
    exact ⟨rfl, Option.some.inj (hs.pts.symm.trans hrrq)⟩
  · rw [hidfree, h6', htopo2, meshTopo, List.range_eq_range']
  · intro f
    have : (Q.fields f).isSome ↔ ∃ q ∈ allPts m1, (q.fields f).isSome := by
      rw [hQ]
      unfold stdMerged
      simp only
      by_cases hk : (allPts m1).any fun q => (q.fields f).isSome
      · rw [if_pos hk]
        simpa using hk
      · rw [if_neg hk]
        simpa using hk
    rw [this, hm1, numbered_known]
    constructor
    · rintro ⟨q, hq, hqf⟩
      obtain ⟨b, hb, hbq⟩ := mem_allPts.1 hq
      exact ⟨b, hb, q, hbq, hqf⟩
    · rintro ⟨b, hb, q, hbq, hqf⟩
      exact ⟨q, mem_allPts.2 ⟨b, hb, hbq⟩, hqf⟩
  · intro i b c s q hi hbc hcl
    obtain ⟨b1, hb1, hb1p, hb1c, -⟩ := hcell1 i b hi
    have hb2 := hget2 i b1 hb1
    set b2 := (if b1.path = [] then { b1 with pts := some Q } else b1) with hb2d
    have hb2p : b2.path = b.path := by rw [hb2d, ← hb1p]; split <;> rfl
    have hb2c : b2.cells = b.cells := by rw [hb2d, ← hb1c]; split <;> rfl
    obtain ⟨b', c', q2, h8, h9, h10, h11, h12, h13⟩ := h7 i b2 c hb2 (by rw [hb2c, hbc])
    obtain ⟨o, ⟨q2', h14, h15⟩, h16⟩ := hsrc _ s q hcl
    rw [hb2p, h14] at h11
    have : q2' = q2 := Option.some.inj h11
    subst this
    have hrange : ∀ n ∈ c.topo.flatten, n < q.x.length := by
      obtain ⟨s', q', hcl', hr⟩ := hc b (List.mem_of_getElem? hi) c hbc
      rw [(closest_unique hm.nodup hcl hcl').2]
      exact hr
    have h17 : rewire c.topo (.arr q2'.id) false = some (c.topo.map fun row => row.map fun n => o + n) :=
      remapTopo_some fun row hrow n hn => h15 n (hrange n (List.mem_flatten.2 ⟨row, hrow, hn⟩))
    have h18 : c'.topo = c.topo.map fun row => row.map fun n => o + n := Option.some.inj (h12.symm.trans h17)
    have h19 : (stdFree r)[i]? = some (if b'.path = [] then b' else { b' with pts := none }) := by
      simp [stdFree, List.getElem?_map, h8]
    refine ⟨_, c', h19, ?_, ?_, ?_, ?_⟩
    · split
      · exact h10
      · exact h10
    · rw [h18, List.map_map]
      apply List.map_congr_left
      intro row _
      simp
    · intro k j n hn
      have hnl := hrange n (mem_flatten_of_nodeAt hn)
      obtain ⟨h20, h21⟩ := h16 n hnl
      refine ⟨o + n, q.x[n], ?_, List.getElem?_eq_getElem hnl, ?_, ?_⟩
      · rw [h18, nodeAt_map, hn]
        rfl
      · rw [hQ]
        unfold stdMerged
        simp only
        rw [List.getElem?_map, h20, List.getElem?_eq_getElem hnl]
        simp only [Option.map_some]
        congr 1
        cases root with
        | none => rfl
        | some F =>
          simp only [Fr.shown]
          exact ((hroot F rfl) _).2
      · intro f d hd
        have hd' : d = (allPts m1).flatMap (fieldOr (dpf f) f) := by
          rw [hQ] at hd
          unfold stdMerged at hd
          simp only at hd
          split at hd
          · exact (Option.some.inj hd).symm
          · cases hd
        rw [hd', h21 f]
        unfold fieldOr
        cases q.fields f with
        | none => simp [hnl]
        | some e => rfl
    · intro f
      refine ⟨fun d hd => ?_, fun hd hk => ?_⟩
      · have hk : ((allCells m).any fun c => (c.fields f).isSome) = true := by
          rw [List.any_eq_true]
          refine ⟨c, ?_, by simp [hd]⟩
          unfold allCells
          rw [List.mem_filterMap]
          exact ⟨b, List.mem_of_getElem? hi, hbc⟩
        rw [h13 f, if_pos hk, hd]
        rfl
      · have hk' : ((allCells m).any fun c => (c.fields f).isSome) = true := by
          rw [List.any_eq_true]
          obtain ⟨b3, hb3, c3, hc3, hf3⟩ := hk
          refine ⟨c3, ?_, hf3⟩
          unfold allCells
          rw [List.mem_filterMap]
          exact ⟨b3, hb3, hc3⟩
        rw [h13 f, if_pos hk', hd]
        rfl

/-- If the frame of every block is the ambient one, each node of each cell keeps its coordinates. -/
theorem C41_partial {root : Option (Fr P)} (hroot : ∀ F, root = some F → F.Valid) (dpf dcf : Nat → D)
    {m : List (MBlock P D)} (hm : MeshTree m) (hamb : ∀ b ∈ m, ∀ x, b.frame.toAmb x = x)
    (h1 : ∀ b ∈ m, ∀ q, b.pts = some q → q.x.length ≠ 1)
    (hf : ∀ b ∈ m, ∀ q, b.pts = some q → ∀ f d, q.fields f = some d → d.length = q.x.length)
    (hc : ∀ b ∈ m, ∀ c, b.cells = some c → ∃ s q, ClosestPts m b.path s q ∧ ∀ n ∈ c.topo.flatten, n < q.x.length) :
    ∃ m' r Q, toStandardForm root dpf dcf m = some m' ∧ m'.map MBlock.path = m.map MBlock.path ∧
      m'[0]? = some r ∧ r.pts = some Q ∧ (∀ p, ∀ s q, ClosestPts m' p s q → s = r ∧ q = Q) ∧
      ∀ (i : Nat) (b : MBlock P D) (c : CData D) (s : MBlock P D) (q : PData P D), m[i]? = some b → b.cells = some c →
        ClosestPts m b.path s q → ∃ (b' : MBlock P D) (c' : CData D), m'[i]? = some b' ∧ b'.cells = some c' ∧
        c'.topo.map List.length = c.topo.map List.length ∧
        ∀ k j n, nodeAt c.topo k j = some n → ∃ n' x, nodeAt c'.topo k j = some n' ∧ q.x[n]? = some x ∧
          Q.x[n']? = some x := by
  obtain ⟨m', r, Q, e1, e2, e3, e4, e5, -, -, e6⟩ := C41_general hroot dpf dcf hm h1 hf hc
  refine ⟨m', r, Q, e1, e2, e3, e4, e5, fun i b c s q hi hb hs => ?_⟩
  obtain ⟨b', c', e7, e8, e9, e10, -⟩ := e6 i b c s q hi hb hs
  refine ⟨b', c', e7, e8, e9, fun k j n hn => ?_⟩
  obtain ⟨n', x, e11, e12, e13, -⟩ := e10 k j n hn
  exact ⟨n', x, e11, e12, by rw [e13, hamb s hs.mem]⟩

/-- A mesh for the examples: the root with four points and a line, a child with three points of its own and a
grandchild whose cells use these. -/
def demoMesh (F : Fr (V3 ℚ)) : List (MBlock (V3 ℚ) ℚ) :=
  [⟨[], F, some ⟨[⟨0, 0, 0⟩, ⟨1, 0, 0⟩, ⟨0, 1, 0⟩, ⟨2, 2, 0⟩], [0, 1, 2, 3], fun _ => none⟩,
      some ⟨[[0, 3]], [0], fun _ => none⟩⟩,
   ⟨[0], F, some ⟨[⟨5, 0, 0⟩, ⟨6, 0, 0⟩, ⟨5, 1, 0⟩], [0, 1, 2], fun f => if f = 7 then some [10, 20, 30] else none⟩, none⟩,
   ⟨[1, 0], F, none, some ⟨[[2, 0, 1], [1, 2, 0]], [0, 1], fun _ => none⟩⟩]

/-- What can be seen of a mesh. -/
def view (m : List (MBlock P D)) : List (Option (List P) × Option Topo) :=
  m.map fun b => (b.pts.map PData.x, b.cells.map CData.topo)

example : (toStandardForm none (fun _ => -1) (fun _ => 0) (demoMesh Fr.ambient)).map view =
    some [(some [⟨0, 0, 0⟩, ⟨1, 0, 0⟩, ⟨0, 1, 0⟩, ⟨2, 2, 0⟩, ⟨5, 0, 0⟩, ⟨6, 0, 0⟩, ⟨5, 1, 0⟩], some [[0, 3]]),
      (none, none), (none, some [[6, 4, 5], [5, 6, 4]])] := by decide +kernel

example : ((toStandardForm none (fun _ => -1) (fun _ => 0) (demoMesh Fr.ambient)).bind fun m =>
    (ptsAt m []).bind fun q => q.fields 7) = some [-1, -1, -1, -1, 10, 20, 30] := by decide +kernel

theorem demoMesh_tree (F : Fr (V3 ℚ)) : MeshTree (demoMesh F) :=
  ⟨⟨_, _, rfl, rfl⟩, by simp [demoMesh]⟩

theorem demo_closest_root (F : Fr (V3 ℚ)) (b : MBlock (V3 ℚ) ℚ) (hb : b ∈ demoMesh F) (c : CData ℚ)
    (hc : b.cells = some c) : ∃ s q, ClosestPts (demoMesh F) b.path s q ∧ ∀ n ∈ c.topo.flatten, n < q.x.length := by
  have hn := (demoMesh_tree F).nodup
  simp only [demoMesh, List.mem_cons, List.not_mem_nil, or_false] at hb
  rcases hb with rfl | rfl | rfl
  · obtain ⟨s, hs⟩ := exists_closest hn (p := []) (q := _) (by rfl)
    refine ⟨s, _, hs, ?_⟩
    cases hc
    simp
  · cases hc
  · obtain ⟨s, hs⟩ := exists_closest hn (p := [1, 0]) (q := _) (by rfl)
    refine ⟨s, _, hs, ?_⟩
    cases hc
    simp

example : ∃ m' r Q, toStandardForm none (fun _ => -1) (fun _ => 0) (demoMesh Fr.ambient) = some m' ∧ m'[0]? = some r ∧
    r.pts = some Q := by
  obtain ⟨m', r, Q, h1, -, h2, h3, -⟩ := C41_partial (root := none) (by simp) (fun _ => (-1 : ℚ)) (fun _ => 0)
    (demoMesh_tree Fr.ambient)
    (by intro b hb; simp only [demoMesh, List.mem_cons, List.not_mem_nil, or_false] at hb; rcases hb with rfl | rfl | rfl <;> simp [Fr.ambient])
    (by intro b hb q hq; simp only [demoMesh, List.mem_cons, List.not_mem_nil, or_false] at hb
        rcases hb with rfl | rfl | rfl <;> simp at hq <;> subst hq <;> simp)
    (by intro b hb q hq f d hd; simp only [demoMesh, List.mem_cons, List.not_mem_nil, or_false] at hb
        rcases hb with rfl | rfl | rfl <;> simp at hq <;> subst hq <;> simp at hd; rw [← hd.2]; rfl)
    (demo_closest_root _)
  exact ⟨m', r, Q, h1, h2, h3⟩

/-- A frame turned by a right angle about the third axis. -/
def quarterFrame : Fr (V3 ℚ) := ⟨fun p => ⟨-p.y, p.x, p.z⟩, fun p => ⟨p.y, -p.x, p.z⟩⟩

/-- The statement of C41 for meshes with frames. -/
def StandardFormKeepsGeometry (P D : Type) : Prop :=
  ∀ (root : Option (Fr P)) (dpf dcf : Nat → D) (m : List (MBlock P D)), (∀ F, root = some F → F.Valid) →
    (∀ b ∈ m, b.frame.Valid) → MeshTree m → (∀ b ∈ m, ∀ q, b.pts = some q → q.x.length ≠ 1) →
    ∀ m', toStandardForm root dpf dcf m = some m' → ∀ Q, ptsAt m' [] = some Q →
    ∀ (i : Nat) (b b' : MBlock P D) (c c' : CData D) (s : MBlock P D) (q : PData P D), m[i]? = some b → m'[i]? = some b' →
      b.cells = some c → b'.cells = some c' → ClosestPts m b.path s q →
      ∀ k j n n' x, nodeAt c.topo k j = some n → nodeAt c'.topo k j = some n' → q.x[n]? = some x → Q.x[n']? = some x

/-- The points are stored in ambient coordinates, but the merging takes them for coordinates in the frame of the block and
turns them again: a mesh in a turned frame is turned once more by `to_standard_form`. -/
theorem C41_frame_false : ¬ StandardFormKeepsGeometry (V3 ℚ) ℚ := by
  intro h
  have hn := (demoMesh_tree quarterFrame).nodup
  have hv : ∀ F : Fr (V3 ℚ), F = quarterFrame → F.Valid := by
    rintro F rfl x
    exact ⟨by simp [quarterFrame], by simp [quarterFrame]⟩
  obtain ⟨s, hs⟩ := exists_closest hn (p := []) (q := _) (by rfl)
  have h1 := h (some quarterFrame) (fun _ => 0) (fun _ => 0) (demoMesh quarterFrame)
    (fun F hF => hv F (Option.some.inj hF).symm)
    (by intro b hb; simp only [demoMesh, List.mem_cons, List.not_mem_nil, or_false] at hb
        rcases hb with rfl | rfl | rfl <;> exact hv _ rfl)
    (demoMesh_tree _)
    (by intro b hb q hq; simp only [demoMesh, List.mem_cons, List.not_mem_nil, or_false] at hb
        rcases hb with rfl | rfl | rfl <;> simp at hq <;> subst hq <;> simp)
    _ rfl _ rfl 0 _ _ _ _ s _ rfl rfl rfl rfl hs 0 1 3 3 ⟨2, 2, 0⟩ rfl rfl rfl
  have h2 : (some ⟨-2, 2, 0⟩ : Option (V3 ℚ)) = some ⟨2, 2, 0⟩ := h1
  exact absurd h2 (by decide +kernel)

/-- A block with a single point: the id manager returns a number instead of an array, the setter of the ids rejects it. -/
theorem C41_single_false : ¬ ∀ (root : Option (Fr (V3 ℚ))) (dpf dcf : Nat → ℚ) (m : List (MBlock (V3 ℚ) ℚ)), MeshTree m →
    (∀ b ∈ m, ∀ c, b.cells = some c → ∃ s q, ClosestPts m b.path s q ∧ ∀ n ∈ c.topo.flatten, n < q.x.length) →
    (toStandardForm root dpf dcf m).isSome := by
  intro h
  have := h none (fun _ => 0) (fun _ => 0) [⟨[], Fr.ambient, some ⟨[⟨1, 2, 3⟩], [0], fun _ => none⟩, none⟩]
    ⟨⟨_, _, rfl, rfl⟩, by simp⟩ (by simp)
  exact absurd this (by decide +kernel)

/-! ## C42 merging node numbers -/

/-- The topology of a block with renumbered nodes. -/
def mapCells (g : Nat → Nat) (b : MBlock P D) : MBlock P D :=
  { b with cells := b.cells.map fun c => { c with topo := c.topo.map (List.map g) } }

@[simp] theorem mapCells_path (g : Nat → Nat) (b : MBlock P D) : (mapCells g b).path = b.path := rfl
@[simp] theorem mapCells_pts (g : Nat → Nat) (b : MBlock P D) : (mapCells g b).pts = b.pts := rfl

theorem mapCells_none {g : Nat → Nat} {b : MBlock P D} (h : b.cells = none) : mapCells g b = b := by
  cases b
  simp only at h
  subst h
  rfl

theorem rewireBlock_eq {imap : IMap} {g : Nat → Nat} {b : MBlock P D}
    (h : ∀ c, b.cells = some c → ∀ n ∈ c.topo.flatten, imap.get? n = some (g n)) :
    rewireBlock imap b = some (mapCells g b) := by
  unfold rewireBlock
  cases hc : b.cells with
  | none => rw [mapCells_none hc]
  | some c =>
    have : rewire c.topo imap false = some (c.topo.map (List.map g)) :=
      remapTopo_some fun row hrow n hn => h c hc n (List.mem_flatten.2 ⟨row, hrow, hn⟩)
    simp only [this, Option.map_some, mapCells, hc]

/-- `rewire` of a mesh with a map defined on all used nodes renumbers every block beneath exactly once. -/
theorem C42_rewire {imap : IMap} {g : Nat → Nat} {p : List Nat} {m : List (MBlock P D)}
    (h : ∀ b ∈ m, p <:+ b.path → ∀ c, b.cells = some c → ∀ n ∈ c.topo.flatten, imap.get? n = some (g n)) :
    rewireDeep imap p m = some (m.map fun b => if p <:+ b.path then
      { b with cells := b.cells.map fun c => { c with topo := c.topo.map (List.map g) } } else b) := by
  unfold rewireDeep
  apply mapM_some
  intro b hb
  split
  · rename_i hp
    exact rewireBlock_eq (h b hb hp)
  · rfl

theorem rewireAll {imap : IMap} {g : Nat → Nat} {ps : List (List Nat)} (hnd : ps.Nodup) {m : List (MBlock P D)}
    (h : ∀ b ∈ m, b.path ∈ ps → ∀ c, b.cells = some c → ∀ n ∈ c.topo.flatten, imap.get? n = some (g n))
    (hflat : ∀ b ∈ m, b.cells.isSome → ∀ p ∈ ps, p <:+ b.path → p = b.path) :
    ps.foldlM (fun m p => rewireDeep imap p m) m = some (m.map fun b => if b.path ∈ ps then mapCells g b else b) := by
  induction ps generalizing m with
  | nil => simp
  | cons p ps ih =>
    have hstep : rewireDeep imap p m = some (m.map fun b => if b.path = p then mapCells g b else b) := by
      unfold rewireDeep
      apply mapM_some
      intro b hb
      by_cases hc : b.cells.isSome
      · by_cases hp : p <:+ b.path
        · have := hflat b hb hc p List.mem_cons_self hp
          rw [if_pos hp, if_pos this.symm]
          exact rewireBlock_eq (h b hb (by simp [this]))
        · rw [if_neg hp, if_neg (fun e => hp (by rw [e]))]
      · have hc' : b.cells = none := by simpa using hc
        rw [mapCells_none hc']
        have : rewireBlock imap b = some b := by unfold rewireBlock; rw [hc']
        rw [this]
        simp
    rw [List.foldlM_cons, hstep]
    have hnd' := List.nodup_cons.1 hnd
    simp only [Option.bind_eq_bind, Option.bind_some]
    rw [ih hnd'.2, List.map_map]
    · congr 1
      apply List.map_congr_left
      intro b _
      simp only [Function.comp, List.mem_cons]
      by_cases e : b.path = p
      · have : b.path ∉ ps := by rw [e]; exact hnd'.1
        simp [e, hnd'.1]
      · simp [e]
    · intro b hb hbp
      rw [List.mem_map] at hb
      obtain ⟨b0, hb0, rfl⟩ := hb
      by_cases e : b0.path = p
      · rw [if_pos e] at hbp
        simp only [mapCells_path, e] at hbp
        exact absurd hbp hnd'.1
      · rw [if_neg e] at hbp ⊢
        exact h b0 hb0 (List.mem_cons_of_mem _ hbp)
    · intro b hb hbc p' hp' hs
      rw [List.mem_map] at hb
      obtain ⟨b0, hb0, rfl⟩ := hb
      by_cases e : b0.path = p
      · rw [if_pos e] at hs hbc ⊢
        exact hflat b0 hb0 (by simpa [mapCells] using hbc) p' (List.mem_cons_of_mem _ hp') hs
      · rw [if_neg e] at hs hbc ⊢
        exact hflat b0 hb0 hbc p' (List.mem_cons_of_mem _ hp') hs

theorem gather?_some {α : Type} {a : List α} {inds : List Nat} (h : ∀ n ∈ inds, n < a.length) :
    ∃ r, gather? a inds = some r ∧ r.length = inds.length ∧ ∀ (i n : Nat), inds[i]? = some n → r[i]? = a[n]? := by
  obtain ⟨r, h1, h2, h3⟩ := mapM_exists (P := fun _ n y => a[n]? = some y) (f := fun i => a[i]?) (l := inds)
    (by
      intro i n hn
      have := h n (List.mem_of_getElem? hn)
      exact ⟨a[n], List.getElem?_eq_getElem this, List.getElem?_eq_getElem this⟩)
  refine ⟨r, h1, h2, fun i n hn => ?_⟩
  have hi : i < r.length := by rw [h2]; exact (List.getElem?_eq_some_iff.1 hn).1
  rw [h3 i n r[i] hn (List.getElem?_eq_getElem hi), List.getElem?_eq_getElem hi]

theorem gather?_range {N : Nat} {inds : List Nat} (h : ∀ n ∈ inds, n < N) : gather? (List.range N) inds = some inds := by
  have := mapM_some (f := fun i => (List.range N)[i]?) (g := fun i => i) (l := inds)
    (by intro n hn; simp [h n hn])
  unfold gather?
  simpa using this

/-- When no cell block lies beneath another one, `nummrg` renumbers consistently: every cell keeps its points and their
data, exactly the used points remain, numbered consecutively. -/
theorem C42_partial {m : List (MBlock P D)} (hm : MeshTree m) {q : PData P D} (hq : ptsAt m [] = some q)
    (hid : q.id = List.range q.x.length) (hf : ∀ f d, q.fields f = some d → d.length = q.x.length)
    (hflat : ∀ b ∈ m, ∀ b' ∈ m, b.cells.isSome → b'.cells.isSome → b.path <:+ b'.path → b.path = b'.path)
    (hr : ∀ b ∈ m, ∀ c, b.cells = some c → ∀ n ∈ c.topo.flatten, n < q.x.length) :
    ∃ m' Q, nummrg m = some m' ∧ m'.map MBlock.path = m.map MBlock.path ∧ ptsAt m' [] = some Q ∧
      Q.id = List.range Q.x.length ∧
      (∀ n', n' < Q.x.length → ∃ b' ∈ m', ∃ c', b'.cells = some c' ∧ n' ∈ c'.topo.flatten) ∧
      ∃ g : Nat → Nat, (∀ a b, UsesNode (meshTopo m) a → UsesNode (meshTopo m) b → g a = g b → a = b) ∧
      ∀ (i : Nat) (b : MBlock P D) (c : CData D), m[i]? = some b → b.cells = some c →
        ∃ (b' : MBlock P D) (c' : CData D), m'[i]? = some b' ∧ b'.cells = some c' ∧
        c'.topo.map List.length = c.topo.map List.length ∧
        ∀ k j n, nodeAt c.topo k j = some n → nodeAt c'.topo k j = some (g n) ∧
          (∃ x, q.x[n]? = some x ∧ Q.x[g n]? = some x) ∧
          ∀ f d, q.fields f = some d → ∃ e, Q.fields f = some e ∧ e[g n]? = d[n]? := by
  set inds := npUnique (meshTopo m).flatten with hinds
  have hused : ∀ n, n ∈ inds ↔ ∃ b ∈ m, ∃ c, b.cells = some c ∧ n ∈ c.topo.flatten := by
    intro n
    rw [hinds, mem_npUnique]
    simp only [meshTopo, allCells, List.mem_flatten, List.mem_flatMap, List.mem_filterMap]
    constructor
    · rintro ⟨row, ⟨c, ⟨b, hb, hc⟩, hrow⟩, hn⟩
      exact ⟨b, hb, c, hc, row, hrow, hn⟩
    · rintro ⟨b, hb, c, hc, row, hrow, hn⟩
      exact ⟨row, ⟨c, ⟨b, hb, hc⟩, hrow⟩, hn⟩
  have hlt : ∀ n ∈ inds, n < q.x.length := by
    intro n hn
    obtain ⟨b, hb, c, hc, hnc⟩ := (hused n).1 hn
    exact hr b hb c hc n hnc
  obtain ⟨X, hX, hXl, hXg⟩ := gather?_some (a := q.x) hlt
  have hI : gather? q.id inds = some inds := by rw [hid]; exact gather?_range hlt
  have hnd : inds.Nodup := nodup_npUnique _
  set Q : PData P D := ⟨X, List.range X.length, fun f => (q.fields f).bind fun d => gather? d inds⟩ with hQ
  have hmap : ∀ n ∈ inds, (IMap.dict (indsToInvmapAsDict inds)).get? n = some (inds.idxOf n) := by
    intro n hn
    show (indsToInvmapAsDict inds).get? n = _
    rw [invmap_get? hnd, if_pos hn]
  have hps : (cellPaths m).Nodup := by
    unfold cellPaths
    exact hm.nodup.sublist (List.Sublist.map _ List.filter_sublist)
  have hmem : ∀ b ∈ m, b.cells.isSome → b.path ∈ cellPaths m := by
    intro b hb hc
    unfold cellPaths
    exact List.mem_map_of_mem (List.mem_filter.2 ⟨hb, by simpa using hc⟩)
  have hall := rewireAll (imap := .dict (indsToInvmapAsDict inds)) (g := inds.idxOf) hps (m := m)
    (fun b hb _ c hc n hn => hmap n ((hused n).2 ⟨b, hb, c, hc, hn⟩))
    (by
      intro b hb hbc p hp hs
      unfold cellPaths at hp
      rw [List.mem_map] at hp
      obtain ⟨b0, hb0, rfl⟩ := hp
      rw [List.mem_filter] at hb0
      exact hflat b0 hb0.1 b hb (by simpa using hb0.2) hbc hs)
  have hall' : (m.map fun b => if b.path ∈ cellPaths m then mapCells inds.idxOf b else b) = m.map (mapCells inds.idxOf) := by
    apply List.map_congr_left
    intro b hb
    by_cases hc : b.cells.isSome
    · rw [if_pos (hmem b hb hc)]
    · rw [mapCells_none (by simpa using hc)]
      simp
  rw [hall'] at hall
  have hnum : nummrg m = some (setRoot Q (m.map (mapCells inds.idxOf))) := by
    unfold nummrg
    rw [hq]
    simp only [Option.bind_some, PData.rows]
    rw [← hinds, hX]
    simp only [Option.bind_some, hI, Option.map_some, hall]
    rfl
  have hpath : (setRoot Q (m.map (mapCells inds.idxOf))).map MBlock.path = m.map MBlock.path := by
    rw [setRoot_path, List.map_map]
    rfl
  obtain ⟨br, hbr, hbrp, hbrq⟩ := ptsAt_some hq
  have hroot : ptsAt (setRoot Q (m.map (mapCells inds.idxOf))) [] = some Q := by
    have hmem' : ({ mapCells inds.idxOf br with pts := some Q } : MBlock P D) ∈ setRoot Q (m.map (mapCells inds.idxOf)) := by
      unfold setRoot
      rw [List.mem_map]
      exact ⟨mapCells inds.idxOf br, List.mem_map_of_mem hbr, by rw [if_pos (by simp [hbrp])]⟩
    have := ptsAt_of_mem (by rw [hpath]; exact hm.nodup) hmem'
    simpa [hbrp] using this
  have hget : ∀ (i : Nat) (b : MBlock P D), m[i]? = some b →
      ∃ b', (setRoot Q (m.map (mapCells inds.idxOf)))[i]? = some b' ∧
        b'.cells = b.cells.map fun c => { c with topo := c.topo.map (List.map inds.idxOf) } := by
    intro i b hi
    refine ⟨if b.path = [] then { mapCells inds.idxOf b with pts := some Q } else mapCells inds.idxOf b, ?_, ?_⟩
    · unfold setRoot
      rw [List.getElem?_map, List.getElem?_map, hi]
      rfl
    · split <;> rfl
  refine ⟨_, Q, hnum, hpath, hroot, rfl, ?_, inds.idxOf, ?_, ?_⟩
  · intro n' hn'
    have hn'' : n' < inds.length := by rw [← hXl]; exact hn'
    obtain ⟨b, hb, c, hc, hnc⟩ := (hused inds[n']).1 (List.getElem_mem hn'')
    obtain ⟨i, hi⟩ := List.mem_iff_getElem?.1 hb
    obtain ⟨b', h1, h2⟩ := hget i b hi
    refine ⟨b', List.mem_of_getElem? h1, _, by rw [h2, hc]; rfl, ?_⟩
    simp only
    rw [← List.map_flatten, List.mem_map]
    exact ⟨inds[n'], hnc, by rw [hnd.idxOf_getElem]⟩
  · intro a b ha hb hab
    have hu : ∀ n, UsesNode (meshTopo m) n → n ∈ inds := by
      rintro n ⟨row, hrow, hn⟩
      rw [hinds, mem_npUnique]
      exact List.mem_flatten.2 ⟨row, hrow, hn⟩
    exact (List.idxOf_inj (hu a ha)).1 hab
  · intro i b c hi hc
    obtain ⟨b', h1, h2⟩ := hget i b hi
    refine ⟨b', _, h1, by rw [h2, hc]; rfl, ?_, ?_⟩
    · simp only [List.map_map]
      apply List.map_congr_left
      intro row _
      simp
    · intro k j n hn
      have hnc := mem_flatten_of_nodeAt hn
      have hni : n ∈ inds := (hused n).2 ⟨b, List.mem_of_getElem? hi, c, hc, hnc⟩
      have hidx : inds[inds.idxOf n]? = some n := List.getElem?_idxOf hni
      refine ⟨by rw [nodeAt_map, hn]; rfl, ⟨q.x[n]'(hlt n hni), List.getElem?_eq_getElem _, ?_⟩, ?_⟩
      · show X[inds.idxOf n]? = _
        rw [hXg _ _ hidx]
        exact List.getElem?_eq_getElem _
      · intro f d hd
        obtain ⟨e, he, _, heg⟩ := gather?_some (a := d) (inds := inds) (by rw [hf f d hd]; exact hlt)
        exact ⟨e, by rw [hQ]; simp [hd, he], heg _ _ hidx⟩

/-- Two cell blocks side by side beneath the root; the first point is not used. -/
def flatMesh : List (MBlock (V3 ℚ) ℚ) :=
  [⟨[], Fr.ambient, some ⟨[⟨0, 0, 0⟩, ⟨1, 0, 0⟩, ⟨2, 0, 0⟩, ⟨3, 0, 0⟩], [0, 1, 2, 3], fun _ => none⟩, none⟩,
   ⟨[0], Fr.ambient, none, some ⟨[[1, 2]], [0], fun _ => none⟩⟩,
   ⟨[1], Fr.ambient, none, some ⟨[[3, 2]], [1], fun _ => none⟩⟩]

example : (nummrg flatMesh).map view =
    some [(some [⟨1, 0, 0⟩, ⟨2, 0, 0⟩, ⟨3, 0, 0⟩], none), (none, some [[0, 1]]), (none, some [[2, 1]])] := by decide +kernel

example : ∃ m', nummrg flatMesh = some m' := by
  obtain ⟨m', Q, h, -⟩ := C42_partial (m := flatMesh) ⟨⟨_, _, rfl, rfl⟩, by simp [flatMesh]⟩ (q := _) rfl rfl
    (by intro f d h; cases h)
    (by
      intro b hb b' hb'
      simp only [flatMesh, List.mem_cons, List.not_mem_nil, or_false] at hb hb'
      rcases hb with rfl | rfl | rfl <;> rcases hb' with rfl | rfl | rfl <;> simp <;> decide)
    (by
      intro b hb c hc
      simp only [flatMesh, List.mem_cons, List.not_mem_nil, or_false] at hb
      rcases hb with rfl | rfl | rfl <;> cases hc <;> simp)
  exact ⟨m', h⟩

/-- A cell block beneath another cell block. -/
def nestedMesh : List (MBlock (V3 ℚ) ℚ) :=
  [⟨[], Fr.ambient, some ⟨[⟨0, 0, 0⟩, ⟨1, 0, 0⟩, ⟨2, 0, 0⟩, ⟨3, 0, 0⟩], [0, 1, 2, 3], fun _ => none⟩,
      some ⟨[[1, 2]], [0], fun _ => none⟩⟩,
   ⟨[0], Fr.ambient, none, some ⟨[[2, 3]], [1], fun _ => none⟩⟩]

/-- A cell block beneath another cell block is renumbered twice: its cells move to other points. -/
theorem C42_false : ¬ ∀ (m m' : List (MBlock (V3 ℚ) ℚ)) (q Q : PData (V3 ℚ) ℚ), MeshTree m → ptsAt m [] = some q →
    q.id = List.range q.x.length →
    (∀ b ∈ m, ∀ c, b.cells = some c → ∀ n ∈ c.topo.flatten, n < q.x.length) → nummrg m = some m' → ptsAt m' [] = some Q →
    ∀ (i : Nat) (b b' : MBlock (V3 ℚ) ℚ) (c c' : CData ℚ), m[i]? = some b → m'[i]? = some b' → b.cells = some c →
      b'.cells = some c' → ∀ k j n n', nodeAt c.topo k j = some n → nodeAt c'.topo k j = some n' → Q.x[n']? = q.x[n]? := by
  intro h
  have h1 := h nestedMesh _ _ _ ⟨⟨_, _, rfl, rfl⟩, by simp [nestedMesh]⟩ rfl rfl
    (by
      intro b hb c hc
      simp only [nestedMesh, List.mem_cons, List.not_mem_nil, or_false] at hb
      rcases hb with rfl | rfl <;> cases hc <;> simp) rfl rfl 1 _ _ _ _ rfl rfl rfl rfl 0 0 2 0 rfl rfl
  have h2 : (some ⟨1, 0, 0⟩ : Option (V3 ℚ)) = some ⟨2, 0, 0⟩ := h1
  exact absurd h2 (by decide +kernel)

end PM
