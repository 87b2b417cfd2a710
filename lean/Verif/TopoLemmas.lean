import Verif.Topo
import Verif.Spec

/-! Helper lemmas for `Verif.Topo`. -/

namespace PM

section split
variable {α β : Type}

theorem splitCuts_flatten (l : List (List α)) : splitCuts l.flatten (l.map List.length) = l := by
  induction l with
  | nil => rfl
  | cons a l ih => simp [splitCuts, ih]

theorem splitCuts_map_flatten (f : α → β) (l : List (List α)) :
    splitCuts (l.flatten.map f) (l.map List.length) = l.map (List.map f) := by
  have h : l.map List.length = (l.map (List.map f)).map List.length := by
    simp [List.map_map, Function.comp_def]
  rw [h, List.map_flatten, splitCuts_flatten]

theorem splitCuts_flatten_of_lengths {l : List (List α)} {c : List Nat} (h : c = l.map List.length) :
    splitCuts l.flatten c = l := by rw [h, splitCuts_flatten]

end split

theorem regularize_fst (topo : Topo) :
    (regularize topo).1 = topo.map (List.map fun x => (npUnique topo.flatten).idxOf x) := by
  simp only [regularize, npUniqueInv]
  exact splitCuts_map_flatten _ _

/-! ### dictionaries built in a loop -/

section dictfold
variable {κ α : Type} [DecidableEq κ]

theorem dictFold_not_mem {w : List (κ × α)} {d : PyDict κ α} {k : κ} (h : ∀ x ∈ w, x.1 ≠ k) :
    PyDict.get? (w.foldl (fun d x => PyDict.set d x.1 x.2) d) k = d.get? k := by
  induction w generalizing d with
  | nil => rfl
  | cons x w ih =>
    rw [List.foldl_cons, ih fun y hy => h y (List.mem_cons_of_mem _ hy), PyDict.get?_set,
      if_neg (h x List.mem_cons_self)]

theorem dictFold_mem {w : List (κ × α)} (hc : Consistent w) {d : PyDict κ α} {x : κ × α} (h : x ∈ w) :
    PyDict.get? (w.foldl (fun d x => PyDict.set d x.1 x.2) d) x.1 = some x.2 := by
  induction w generalizing d x with
  | nil => simp at h
  | cons y w ih =>
    have hc' : Consistent w := fun a ha b hb =>
      hc a (List.mem_cons_of_mem _ ha) b (List.mem_cons_of_mem _ hb)
    rw [List.foldl_cons]
    by_cases hx : ∃ z ∈ w, z.1 = x.1
    · obtain ⟨z, hz, hzx⟩ := hx
      rw [← hzx, ih hc' hz]
      exact congrArg some (hc z (List.mem_cons_of_mem _ hz) x h hzx)
    · push Not at hx
      rw [dictFold_not_mem hx, PyDict.get?_set]
      rcases List.mem_cons.1 h with rfl | h
      · simp
      · exact absurd rfl (hx x h)

end dictfold

theorem consistent_zipIdx {l : List Nat} (h : l.Nodup) : Consistent l.zipIdx := by
  intro x hx y hy hxy
  obtain ⟨x1, x2⟩ := x
  obtain ⟨y1, y2⟩ := y
  simp only at hxy
  subst hxy
  rw [List.mem_zipIdx_iff_getElem?] at hx hy
  simp only at hx hy
  have hx' := List.getElem?_eq_some_iff.1 hx
  obtain ⟨hx1, hx2⟩ := hx'
  exact (List.getElem?_inj hx1 h).1 (hx.trans hy.symm)

theorem invmap_get? {inds : List Nat} (h : inds.Nodup) (x : Nat) :
    (indsToInvmapAsDict inds).get? x = if x ∈ inds then some (inds.idxOf x) else none := by
  unfold indsToInvmapAsDict
  split
  · rename_i hx
    have hm : (x, inds.idxOf x) ∈ inds.zipIdx := by
      rw [List.mem_zipIdx_iff_getElem?]; exact List.getElem?_idxOf hx
    exact dictFold_mem (consistent_zipIdx h) hm
  · rename_i hx
    rw [dictFold_not_mem]
    · rfl
    · rintro ⟨a, b⟩ hab rfl
      rw [List.mem_zipIdx_iff_getElem?] at hab
      exact hx (List.mem_of_getElem? hab)

/-! ### `mapM` -/

section mapm
variable {α β : Type}

theorem mapM_some {f : α → Option β} {g : α → β} {l : List α} (h : ∀ x ∈ l, f x = some (g x)) :
    l.mapM f = some (l.map g) := by
  induction l with
  | nil => rfl
  | cons a l ih =>
    rw [List.mapM_cons, h a List.mem_cons_self, ih fun x hx => h x (List.mem_cons_of_mem _ hx)]
    rfl

theorem mapM_none {f : α → Option β} {l : List α} {a : α} (ha : a ∈ l) (h : f a = none) :
    l.mapM f = none := by
  induction l with
  | nil => simp at ha
  | cons b l ih =>
    rw [List.mapM_cons]
    rcases List.mem_cons.1 ha with rfl | ha
    · simp [h]
    · rw [ih ha]; cases f b <;> rfl

theorem mapM_eq_some_iff {f : α → Option β} {l : List α} {r : List β} :
    l.mapM f = some r ↔ List.Forall₂ (fun a b => f a = some b) l r := by
  induction l generalizing r with
  | nil => cases r <;> simp
  | cons a l ih =>
    rw [List.mapM_cons]
    constructor
    · intro h
      cases ha : f a with
      | none => simp [ha] at h
      | some b =>
        cases hl : l.mapM f with
        | none => simp [ha, hl] at h
        | some r' =>
          simp [ha, hl] at h
          subst h
          exact List.Forall₂.cons ha (ih.1 hl)
    · intro h
      cases h with
      | cons h1 h2 => simp [h1, ih.2 h2]

theorem mapM_length {f : α → Option β} {l : List α} {r : List β} (h : l.mapM f = some r) :
    r.length = l.length := (mapM_eq_some_iff.1 h).length_eq.symm

theorem mapM_get {f : α → Option β} {l : List α} {r : List β} (h : l.mapM f = some r) {i : Nat} {a : α}
    (hi : l[i]? = some a) : ∃ b, f a = some b ∧ r[i]? = some b := by
  have h' := mapM_eq_some_iff.1 h
  induction h' generalizing i with
  | nil => simp at hi
  | cons h1 h2 ih =>
    cases i with
    | zero => simp at hi; subst hi; exact ⟨_, h1, by simp⟩
    | succ i => simpa using ih (mapM_eq_some_iff.2 h2) (by simpa using hi)

theorem mapM_exists {P : Nat → α → β → Prop} {f : α → Option β} {l : List α}
    (h : ∀ (i : Nat) (x : α), l[i]? = some x → ∃ y, f x = some y ∧ P i x y) :
    ∃ r, l.mapM f = some r ∧ r.length = l.length ∧ ∀ (i : Nat) (x : α) (y : β), l[i]? = some x → r[i]? = some y → P i x y := by
  induction l generalizing P with
  | nil => exact ⟨[], rfl, rfl, by simp⟩
  | cons a l ih =>
    obtain ⟨y, hy, hP⟩ := h 0 a (by simp)
    obtain ⟨r, h1, h2, h3⟩ := ih (P := fun i => P (i + 1)) fun i x hx => h (i + 1) x (by simpa using hx)
    refine ⟨y :: r, by rw [List.mapM_cons, hy, h1]; rfl, by simp [h2], ?_⟩
    intro i x z hx hz
    cases i with
    | zero =>
      simp at hx hz
      subst hx; subst hz; exact hP
    | succ i =>
      rw [List.getElem?_cons_succ] at hx hz
      exact h3 i x z hx hz

end mapm

theorem remapTopo_some {topo : Topo} {imap : IMap} {g : Nat → Nat}
    (h : ∀ row ∈ topo, ∀ x ∈ row, imap.get? x = some (g x)) :
    remapTopo topo imap = some (topo.map (List.map g)) := by
  unfold remapTopo
  exact mapM_some fun row hrow => mapM_some fun x hx => h row hrow x hx

theorem remapTopo1d_some {row : List Nat} {imap : IMap} {g : Nat → Nat}
    (h : ∀ x ∈ row, imap.get? x = some (g x)) : remapTopo1d row imap = some (row.map g) :=
  mapM_some h

theorem remapTopo_none {topo : Topo} {imap : IMap} {row : List Nat} {x : Nat} (hr : row ∈ topo)
    (hx : x ∈ row) (h : imap.get? x = none) : remapTopo topo imap = none :=
  mapM_none hr (mapM_none hx h)

theorem nodeAt_map {g : Nat → Nat} {topo : Topo} {c j : Nat} :
    nodeAt (topo.map (List.map g)) c j = (nodeAt topo c j).map g := by
  unfold nodeAt
  rw [List.getElem?_map]
  cases topo[c]? with
  | none => rfl
  | some r => simp

theorem mem_flatten_of_nodeAt {topo : Topo} {c j n : Nat} (h : nodeAt topo c j = some n) :
    n ∈ topo.flatten := by
  unfold nodeAt at h
  cases hr : topo[c]? with
  | none => simp [hr] at h
  | some r =>
    simp [hr] at h
    exact List.mem_flatten.2 ⟨r, List.mem_of_getElem? hr, List.mem_of_getElem? h⟩

theorem exists_nodeAt_of_mem {topo : Topo} {n : Nat} (h : n ∈ topo.flatten) :
    ∃ c j, nodeAt topo c j = some n := by
  obtain ⟨r, hr, hn⟩ := List.mem_flatten.1 h
  obtain ⟨c, hc⟩ := List.getElem?_of_mem hr
  obtain ⟨j, hj⟩ := List.getElem?_of_mem hn
  exact ⟨c, j, by simp [nodeAt, hc, hj]⟩


/-! ### counting -/

theorem incr?_some {a : List Nat} {v : Nat} (h : v < a.length) :
    incr? a v = some (a.set v (a[v] + 1)) := by
  simp [incr?, List.getElem?_eq_getElem h]

theorem foldlM_incr {l : List Nat} {a : List Nat} (h : ∀ v ∈ l, v < a.length) :
    ∃ r, l.foldlM incr? a = some r ∧ r.length = a.length ∧
      ∀ n x, a[n]? = some x → r[n]? = some (x + l.count n) := by
  induction l generalizing a with
  | nil => exact ⟨a, rfl, rfl, by simp⟩
  | cons v l ih =>
    have hv : v < a.length := h v List.mem_cons_self
    obtain ⟨r, hr, hl, hg⟩ := ih (a := a.set v (a[v] + 1)) (by
      intro w hw; rw [List.length_set]; exact h w (List.mem_cons_of_mem _ hw))
    refine ⟨r, ?_, by simpa using hl, ?_⟩
    · rw [List.foldlM_cons, incr?_some hv]; exact hr
    · intro n x hx
      by_cases hn : v = n
      · subst hn
        have : x = a[v] := by simpa [List.getElem?_eq_getElem hv] using hx.symm
        have := hg v (a[v] + 1) (by simp [hv])
        rw [this, List.count_cons_self]
        subst x; congr 1; omega
      · rw [hg n x (by rw [List.getElem?_set_ne hn]; exact hx), List.count_cons_of_ne hn]

theorem countCellsAtNodesReg_spec {topo : Topo} {mx : Nat} (h : maxNode? topo.flatten = some mx) :
    ∃ r, countCellsAtNodesReg topo = some r ∧ r.length = mx + 1 ∧
      ∀ n, n ≤ mx → r[n]? = some (topo.flatten.count n) := by
  have hm := maxNode?_spec.1 h
  obtain ⟨r, hr, hl, hg⟩ := foldlM_incr (l := topo.flatten) (a := List.replicate (mx + 1) 0) (by
    intro v hv; rw [List.length_replicate]; exact Nat.lt_succ_of_le (hm.2 v hv))
  refine ⟨r, ?_, by simpa using hl, ?_⟩
  · simp [countCellsAtNodesReg, h, hr]
  · intro n hn
    rw [hg n 0 (by simp [List.getElem?_replicate]; omega)]
    simp

theorem sum_eq_sum_range {r : List Nat} {f : Nat → Nat} (h : ∀ n, n < r.length → r[n]? = some (f n)) :
    r = (List.range r.length).map f := by
  apply List.ext_getElem?
  intro n
  by_cases hn : n < r.length
  · rw [h n hn]; simp [List.getElem?_range hn]
  · rw [List.getElem?_eq_none (by omega), List.getElem?_eq_none (by simp; omega)]

/-! ### entries of a topology -/

theorem mem_entriesOf {topo : Topo} {e : Entry} :
    e ∈ entriesOf topo ↔ nodeAt topo e.cell e.pos = some e.node := by
  obtain ⟨c, p, n⟩ := e
  simp only [entriesOf, List.mem_flatMap, List.mem_map, Entry.mk.injEq, nodeAt]
  constructor
  · rintro ⟨⟨row, i⟩, hx, ⟨m, j⟩, hy, rfl, rfl, rfl⟩
    rw [List.mem_zipIdx_iff_getElem?] at hx hy
    simp only at hx hy
    simp [hx, hy]
  · intro h
    cases hr : topo[c]? with
    | none => simp [hr] at h
    | some row =>
      simp [hr] at h
      exact ⟨(row, c), List.mem_zipIdx_iff_getElem?.2 hr, (n, p), List.mem_zipIdx_iff_getElem?.2 h,
        rfl, rfl, rfl⟩

theorem entriesOf_map_node (topo : Topo) : (entriesOf topo).map Entry.node = topo.flatten := by
  unfold entriesOf
  suffices h : ∀ k, ((topo.zipIdx k).flatMap fun x => x.1.zipIdx.map fun y => (⟨x.2, y.2, y.1⟩ : Entry)).map
      Entry.node = topo.flatten from h 0
  induction topo with
  | nil => simp
  | cons r t ih =>
    intro k
    rw [List.zipIdx_cons, List.flatMap_cons, List.map_append, ih, List.flatten_cons]
    congr 1
    rw [List.map_map]
    have : (Entry.node ∘ fun y : Nat × Nat => (⟨k, y.2, y.1⟩ : Entry)) = Prod.fst := rfl
    simp only [this]
    exact List.zipIdx_map_fst 0 r

/-- Lexicographic order of (cell, position). -/
def Entry.before (a b : Entry) : Prop := a.cell < b.cell ∨ (a.cell = b.cell ∧ a.pos < b.pos)

theorem pairwise_zipIdx {α : Type} (l : List α) (k : Nat) :
    (l.zipIdx k).Pairwise (fun a b => a.2 < b.2) := by
  induction l generalizing k with
  | nil => simp
  | cons a l ih =>
    rw [List.zipIdx_cons, List.pairwise_cons]
    refine ⟨?_, ih _⟩
    intro x hx
    have := List.le_snd_of_mem_zipIdx hx
    simp only; omega

theorem pairwise_entriesOf (topo : Topo) : (entriesOf topo).Pairwise Entry.before := by
  unfold entriesOf
  rw [List.pairwise_flatMap]
  constructor
  · rintro ⟨row, c⟩ _
    rw [List.pairwise_map]
    exact (pairwise_zipIdx row 0).imp fun h => Or.inr ⟨rfl, h⟩
  · refine (pairwise_zipIdx topo 0).imp ?_
    rintro ⟨r, c⟩ ⟨r', c'⟩ h x hx y hy
    simp only [List.mem_map] at hx hy
    obtain ⟨x', _, rfl⟩ := hx
    obtain ⟨y', _, rfl⟩ := hy
    exact Or.inl h

/-! ### slot filling -/

/-- The entries at one node. -/
def atNode (es : List Entry) (n : Nat) : List Entry := es.filter fun e => e.node == n

theorem length_atNode (es : List Entry) (n : Nat) :
    (atNode es n).length = (es.map Entry.node).count n := by
  unfold atNode
  rw [List.count_eq_countP, List.countP_map, List.countP_eq_length_filter]
  rfl

/-- Invariant of the slot filling loop after the entries `p`. -/
structure SlotInv (N cmax : Nat) (p : List Entry) (s : Slots) : Prop where
  lc : s.count.length = N
  le : s.ereg.length = N
  ln : s.nreg.length = N
  hc : ∀ n, n < N → s.count[n]? = some (atNode p n).length
  he : ∀ n, n < N → ∃ er, s.ereg[n]? = some er ∧ er.length = cmax ∧
    er.take (atNode p n).length = (atNode p n).map Entry.cell
  hn : ∀ n, n < N → ∃ nr, s.nreg[n]? = some nr ∧ nr.length = cmax ∧
    nr.take (atNode p n).length = (atNode p n).map Entry.pos

theorem take_set_succ {l : List Nat} {k v : Nat} (h : k < l.length) :
    (l.set k v).take (k + 1) = l.take k ++ [v] := by
  rw [List.take_succ_eq_append_getElem (by simpa using h)]
  simp [List.take_set_of_le]

theorem set2?_spec {a : List (List Nat)} {i j v : Nat} {row : List Nat} (hr : a[i]? = some row)
    (hj : j < row.length) : set2? a i j v = some (a.set i (row.set j v)) := by
  simp [set2?, hr, hj]

theorem slotStep_inv {N cmax : Nat} {p : List Entry} {s : Slots} (hi : SlotInv N cmax p s) {e : Entry}
    (he : e.node < N) (hlt : (atNode p e.node).length < cmax) :
    ∃ s', slotStep s e = some s' ∧ SlotInv N cmax (p ++ [e]) s' := by
  obtain ⟨er, her, herl, hert⟩ := hi.he e.node he
  obtain ⟨nr, hnr, hnrl, hnrt⟩ := hi.hn e.node he
  have hc := hi.hc e.node he
  set c := (atNode p e.node).length with hcdef
  have hlen : e.node < s.count.length := by rw [hi.lc]; exact he
  refine ⟨⟨s.count.set e.node (c + 1), s.ereg.set e.node (er.set c e.cell),
    s.nreg.set e.node (nr.set c e.pos)⟩, ?_, ?_⟩
  · have h1 := set2?_spec (v := e.cell) her (by omega : c < er.length)
    have h2 := set2?_spec (v := e.pos) hnr (by omega : c < nr.length)
    have h3 := incr?_some hlen
    have h4 : s.count[e.node] = c := by
      rw [List.getElem?_eq_getElem hlen] at hc; exact Option.some.inj hc
    simp [slotStep, hc, h1, h2, h3, h4]
  · have hsame : atNode (p ++ [e]) e.node = atNode p e.node ++ [e] := by simp [atNode]
    have hother : ∀ n, n ≠ e.node → atNode (p ++ [e]) n = atNode p n := by
      intro n hn
      simp [atNode, Ne.symm hn]
    have helen : e.node < s.ereg.length := by rw [hi.le]; exact he
    have hnlen : e.node < s.nreg.length := by rw [hi.ln]; exact he
    refine ⟨by simp [hi.lc], by simp [hi.le], by simp [hi.ln], ?_, ?_, ?_⟩
    · intro n hn
      by_cases h : n = e.node
      · subst h
        rw [hsame]; simp [hlen, ← hcdef]
      · rw [hother n h]; simp only [List.getElem?_set_ne (Ne.symm h)]; exact hi.hc n hn
    · intro n hn
      by_cases h : n = e.node
      · subst h
        refine ⟨er.set c e.cell, by simp [helen], by simpa using herl, ?_⟩
        rw [hsame, List.length_append, List.length_singleton, ← hcdef,
          take_set_succ (by omega), hert]
        simp
      · rw [hother n h]; simp only [List.getElem?_set_ne (Ne.symm h)]; exact hi.he n hn
    · intro n hn
      by_cases h : n = e.node
      · subst h
        refine ⟨nr.set c e.pos, by simp [hnlen], by simpa using hnrl, ?_⟩
        rw [hsame, List.length_append, List.length_singleton, ← hcdef,
          take_set_succ (by omega), hnrt]
        simp
      · rw [hother n h]; simp only [List.getElem?_set_ne (Ne.symm h)]; exact hi.hn n hn

theorem slotFold_inv {N cmax : Nat} {p q : List Entry} {s : Slots} (hi : SlotInv N cmax p s)
    (hN : ∀ e ∈ q, e.node < N) (hcm : ∀ n, n < N → (atNode (p ++ q) n).length ≤ cmax) :
    ∃ s', q.foldlM slotStep s = some s' ∧ SlotInv N cmax (p ++ q) s' := by
  induction q generalizing p s with
  | nil => exact ⟨s, rfl, by simpa using hi⟩
  | cons e q ih =>
    have hen := hN e List.mem_cons_self
    have hlt : (atNode p e.node).length < cmax := by
      have := hcm e.node hen
      simp [atNode] at this ⊢; omega
    obtain ⟨s1, h1, hi1⟩ := slotStep_inv hi hen hlt
    obtain ⟨s2, h2, hi2⟩ := ih hi1 (fun x hx => hN x (List.mem_cons_of_mem _ hx)) (by
      intro n hn; simpa using hcm n hn)
    refine ⟨s2, ?_, by simpa using hi2⟩
    rw [List.foldlM_cons, h1]; exact h2

/-- Complete description of the slots. -/
theorem cellsAtNodesReg_spec {topo : Topo} {mx : Nat} (h : maxNode? topo.flatten = some mx) :
    ∃ s cmax, cellsAtNodesReg topo = some s ∧ SlotInv (mx + 1) cmax (entriesOf topo) s := by
  have hm := maxNode?_spec.1 h
  obtain ⟨r, hr, hl, hg⟩ := countCellsAtNodesReg_spec h
  obtain ⟨cmax, hcm⟩ := maxNode?_ne_none (l := r) (by
    intro h0; rw [h0] at hl; simp at hl)
  have hcm' := maxNode?_spec.1 hcm
  have hbound : ∀ n, n < mx + 1 → (atNode (entriesOf topo) n).length ≤ cmax := by
    intro n hn
    rw [length_atNode, entriesOf_map_node]
    exact hcm'.2 _ (List.mem_of_getElem? (hg n (by omega)))
  obtain ⟨s, hs, hi⟩ := slotFold_inv (N := mx + 1) (cmax := cmax) (p := []) (q := entriesOf topo)
    (s := ⟨List.replicate (mx + 1) 0, List.replicate (mx + 1) (List.replicate cmax 0),
      List.replicate (mx + 1) (List.replicate cmax 0)⟩)
    ⟨by simp, by simp, by simp,
      by intro n hn; simp [atNode, hn],
      by intro n hn; exact ⟨List.replicate cmax 0, by simp [hn], by simp,
          by simp [atNode]⟩,
      by intro n hn; exact ⟨List.replicate cmax 0, by simp [hn], by simp,
          by simp [atNode]⟩⟩
    (by
      intro e he
      have := mem_flatten_of_nodeAt (mem_entriesOf.1 he)
      exact Nat.lt_succ_of_le (hm.2 _ this))
    (by simpa using hbound)
  refine ⟨s, cmax, ?_, by simpa using hi⟩
  simp [cellsAtNodesReg, h, hr, hcm, hs]


/-! ### flat data -/

theorem spdata_writes_eq {α : Type} (rows : List (List α)) (k : Nat) :
    (((cumsumFrom k (rows.map List.length)).zip rows).flatMap fun x => sliceWrites x.1 x.2) =
      (rows.flatten.zipIdx k).map fun x => (x.2, x.1) := by
  induction rows generalizing k with
  | nil => simp [cumsumFrom]
  | cons r rows ih =>
    simp only [List.map_cons, cumsumFrom, List.zip_cons_cons, List.flatMap_cons, ih,
      List.flatten_cons, List.zipIdx_append, List.map_append]
    congr 1
    simp only [sliceWrites]
    rw [List.zipIdx_eq_map_add (i := k), List.map_map]
    rfl

theorem trimRows_length {count : List Nat} {reg : List (List Nat)} (hl : reg.length = count.length)
    (h : ∀ (n c : Nat) (er : List Nat), count[n]? = some c → reg[n]? = some er → c ≤ er.length) :
    (trimRows count reg).map List.length = count := by
  unfold trimRows
  induction count generalizing reg with
  | nil => simp
  | cons c count ih =>
    cases reg with
    | nil => simp at hl
    | cons r reg =>
      simp only [List.zip_cons_cons, List.map_cons]
      rw [ih (by simpa using hl) (fun n c' er hc he => h (n + 1) c' er (by simpa using hc) (by simpa using he))]
      have := h 0 c r (by simp) (by simp)
      simp [this]

/-- Writes `a[i] = l[i]` for all `i`. -/
theorem toArr_runW_zipIdx {l : List Nat} {w : List (Nat × Nat)} (m : Nat → Nat)
    (hw : (l.zipIdx.map fun x => (x.2, x.1)).Perm w) : toArr l.length (runW w m) = l := by
  have hc : Consistent (l.zipIdx.map fun x => (x.2, x.1)) := by
    intro x hx y hy hxy
    simp only [List.mem_map] at hx hy
    obtain ⟨⟨a, i⟩, hx, rfl⟩ := hx
    obtain ⟨⟨b, j⟩, hy, rfl⟩ := hy
    simp only at hxy
    subst hxy
    rw [List.mem_zipIdx_iff_getElem?] at hx hy
    simp only at hx hy
    exact Option.some.inj (hx.symm.trans hy)
  rw [runW_perm hc hw]
  apply List.ext_getElem?
  intro n
  by_cases hn : n < l.length
  · rw [toArr_getElem? _ hn, List.getElem?_eq_getElem hn]
    have : (n, l[n]) ∈ (l.zipIdx.map fun x => (x.2, x.1)) :=
      List.mem_map.2 ⟨(l[n], n), List.mem_zipIdx_iff_getElem?.2 (List.getElem?_eq_getElem hn), rfl⟩
    exact congrArg some (runW_of_mem hc this)
  · rw [List.getElem?_eq_none (by simp; omega), List.getElem?_eq_none (by omega)]

theorem spdataWrites_eq {count : List Nat} {reg : List (List Nat)}
    (h : (trimRows count reg).map List.length = count) :
    spdataWrites count reg = (trimRows count reg).flatten.zipIdx.map fun x => (x.2, x.1) := by
  unfold spdataWrites indptrOf
  conv_lhs => rw [show cumsumFrom 0 count = cumsumFrom 0 ((trimRows count reg).map List.length) by rw [h]]
  exact spdata_writes_eq _ 0

/-- The flat array is the concatenation of the trimmed rows, in whatever order the loop ran. -/
theorem spdata_perm {count : List Nat} {reg : List (List Nat)}
    (h : (trimRows count reg).map List.length = count) {w : List (Nat × Nat)}
    (hw : (spdataWrites count reg).Perm w) :
    toArr count.sum (runW w fun _ => 0) = (trimRows count reg).flatten := by
  have hs : count.sum = (trimRows count reg).flatten.length := by
    rw [List.length_flatten, h]
  rw [hs]
  exact toArr_runW_zipIdx _ (by rwa [spdataWrites_eq h] at hw)

theorem spdata_eq {count : List Nat} {reg : List (List Nat)}
    (h : (trimRows count reg).map List.length = count) :
    spdata count reg = (trimRows count reg).flatten := spdata_perm h (List.Perm.refl _)

theorem splitCuts_spdata {count : List Nat} {reg : List (List Nat)}
    (h : (trimRows count reg).map List.length = count) :
    splitCuts (spdata count reg) count = trimRows count reg := by
  rw [spdata_eq h]; exact splitCuts_flatten_of_lengths h.symm

theorem trimRows_getElem? {count : List Nat} {reg : List (List Nat)} {n c : Nat} {er : List Nat}
    (hc : count[n]? = some c) (he : reg[n]? = some er) : (trimRows count reg)[n]? = some (er.take c) := by
  have : (count.zip reg)[n]? = some (c, er) := List.getElem?_zip_eq_some.2 ⟨hc, he⟩
  simp [trimRows, this]

/-! ### dictionaries with distinct keys -/

section dictnodup
variable {α : Type}

theorem PyDict.set_of_not_mem {d : PyDict Nat α} {k : Nat} {v : α} (h : k ∉ d.map Prod.fst) :
    d.set k v = d ++ [(k, v)] := by
  induction d with
  | nil => rfl
  | cons x d ih =>
    obtain ⟨a, b⟩ := x
    simp only [List.map_cons, List.mem_cons, not_or] at h
    simp [PyDict.set, Ne.symm h.1, ih h.2]

theorem dictFold_nodup {w d : PyDict Nat α} (h : ((d ++ w).map Prod.fst).Nodup) :
    w.foldl (fun d x => PyDict.set d x.1 x.2) d = d ++ w := by
  induction w generalizing d with
  | nil => simp
  | cons x w ih =>
    have hx : x.1 ∉ d.map Prod.fst := by
      rw [List.map_append, List.map_cons, List.nodup_append] at h
      intro hm
      exact h.2.2 _ hm _ List.mem_cons_self rfl
    rw [List.foldl_cons, PyDict.set_of_not_mem hx, ih (by simpa using h)]
    simp

theorem PyDict.get?_of_mem {d : PyDict Nat α} (h : (d.map Prod.fst).Nodup) {k : Nat} {v : α}
    (hm : (k, v) ∈ d) : d.get? k = some v := by
  induction d with
  | nil => simp at hm
  | cons x d ih =>
    obtain ⟨a, b⟩ := x
    rw [List.map_cons, List.nodup_cons] at h
    rcases List.mem_cons.1 hm with hm | hm
    · obtain ⟨rfl, rfl⟩ := Prod.mk.inj hm; simp [PyDict.get?]
    · have : a ≠ k := by
        rintro rfl; exact h.1 (List.mem_map.2 ⟨_, hm, rfl⟩)
      simp [PyDict.get?, this, ih h.2 hm]

theorem PyDict.mem_of_get? {d : PyDict Nat α} {k : Nat} {v : α} (hm : d.get? k = some v) :
    (k, v) ∈ d := by
  induction d with
  | nil => simp [PyDict.get?] at hm
  | cons x d ih =>
    obtain ⟨a, b⟩ := x
    by_cases h : a = k
    · subst h; simp [PyDict.get?] at hm; subst hm; exact List.mem_cons_self
    · simp [PyDict.get?, h] at hm; exact List.mem_cons_of_mem _ (ih hm)

end dictnodup

theorem foldlM_pairs {β γ ι : Type} {step : PyDict Nat β × PyDict Nat γ → ι → Option (PyDict Nat β × PyDict Nat γ)}
    {l : List ι} {k : ι → Nat} {A : ι → β} {B : ι → γ}
    (h : ∀ i ∈ l, ∀ d, step d i = some (PyDict.set d.1 (k i) (A i), PyDict.set d.2 (k i) (B i)))
    (d : PyDict Nat β × PyDict Nat γ) :
    l.foldlM step d = some ((l.map fun i => (k i, A i)).foldl (fun d x => PyDict.set d x.1 x.2) d.1,
      (l.map fun i => (k i, B i)).foldl (fun d x => PyDict.set d x.1 x.2) d.2) := by
  induction l generalizing d with
  | nil => rfl
  | cons i l ih =>
    rw [List.foldlM_cons, h i List.mem_cons_self]
    exact ih (fun j hj => h j (List.mem_cons_of_mem _ hj)) _

/-- All dictionaries of the `'dicts'` format in closed form. -/
theorem nodalCellDataToDicts_spec {N cmax : Nat} {es : List Entry} {s : Slots} (hi : SlotInv N cmax es s)
    {cellIDs nodeIDs : List Nat} (hn : nodeIDs.length = N) (hnd : nodeIDs.Nodup)
    (hc : ∀ e ∈ es, e.cell < cellIDs.length) :
    nodalCellDataToDicts s cellIDs nodeIDs =
      some ((List.range N).map fun i => (nodeIDs.getD i 0, (atNode es i).map fun e => cellIDs.getD e.cell 0),
        (List.range N).map fun i => (nodeIDs.getD i 0, (atNode es i).map Entry.pos)) := by
  unfold nodalCellDataToDicts
  rw [hi.lc]
  rw [foldlM_pairs (k := fun i => nodeIDs.getD i 0) (A := fun i => (atNode es i).map fun e => cellIDs.getD e.cell 0)
    (B := fun i => (atNode es i).map Entry.pos)]
  · have hk : ((List.range N).map fun i => nodeIDs.getD i 0) = nodeIDs := by
      apply List.ext_getElem?
      intro n
      by_cases h : n < N
      · simp [List.getElem?_range h, List.getElem?_eq_getElem (hn ▸ h : n < nodeIDs.length)]
      · rw [List.getElem?_eq_none (by simp; omega), List.getElem?_eq_none (by omega)]
    rw [dictFold_nodup (by rw [List.nil_append, List.map_map]; exact hk.symm ▸ hnd),
      dictFold_nodup (by rw [List.nil_append, List.map_map]; exact hk.symm ▸ hnd)]
    simp
  · intro i hi' d
    have hiN : i < N := List.mem_range.1 hi'
    obtain ⟨er, her, -, hert⟩ := hi.he i hiN
    obtain ⟨nr, hnr, -, hnrt⟩ := hi.hn i hiN
    have h1 : nodeIDs[i]? = some (nodeIDs.getD i 0) := by
      simp [List.getElem?_eq_getElem (hn ▸ hiN : i < nodeIDs.length)]
    have h2 : gather? cellIDs ((atNode es i).map Entry.cell) =
        some ((atNode es i).map fun e => cellIDs.getD e.cell 0) := by
      unfold gather?
      rw [mapM_some (g := fun c => cellIDs.getD c 0)]
      · simp [List.map_map, Function.comp_def]
      · intro c hcm
        obtain ⟨e, he, rfl⟩ := List.mem_map.1 hcm
        have := hc e (List.mem_of_mem_filter he)
        simp [List.getElem?_eq_getElem this]
    rw [h1, hi.hc i hiN, her, hnr]
    simp only [Option.bind_eq_bind, Option.bind_some, hert, hnrt, h2]
    rfl

/-- A gap-free topology uses exactly the numbers up to its maximum. -/
theorem isRegular_spec {topo : Topo} {b : Bool} (h : isRegular topo = some b) :
    ∃ mx, maxNode? topo.flatten = some mx ∧ (b = true ↔ npUnique topo.flatten = List.range (mx + 1)) := by
  unfold isRegular at h
  cases hmn : minNode? topo.flatten with
  | none => simp [hmn] at h
  | some mn =>
    cases hmx : maxNode? topo.flatten with
    | none => simp [hmn, hmx] at h
    | some mx =>
      simp only [hmn, hmx, Option.some.injEq] at h
      refine ⟨mx, rfl, ?_⟩
      have hm := maxNode?_spec.1 hmx
      have hn := minNode?_spec.1 hmn
      subst h
      rw [Bool.and_eq_true, beq_iff_eq, beq_iff_eq]
      constructor
      · rintro ⟨_, hlen⟩
        have hsub : (npUnique topo.flatten).Subperm (List.range (mx + 1)) := by
          apply List.subperm_of_subset (nodup_npUnique _)
          intro x hx
          rw [mem_npUnique] at hx
          exact List.mem_range.2 (Nat.lt_succ_of_le (hm.2 x hx))
        have hp : (npUnique topo.flatten).Perm (List.range (mx + 1)) :=
          hsub.perm_of_length_le (by rw [hlen]; simp)
        exact eq_of_sorted_of_mem (sorted_npUnique _) List.pairwise_lt_range fun x => hp.mem_iff
      · intro he
        refine ⟨?_, by rw [he]; simp⟩
        have : 0 ∈ topo.flatten := mem_npUnique.1 (by rw [he]; simp)
        have := hn.2 0 this
        omega

theorem entriesOf_map {g : Nat → Nat} (topo : Topo) :
    entriesOf (topo.map (List.map g)) = (entriesOf topo).map fun e => ⟨e.cell, e.pos, g e.node⟩ := by
  unfold entriesOf
  rw [List.zipIdx_map, List.flatMap_map, List.map_flatMap]
  congr 1
  funext x
  obtain ⟨r, c⟩ := x
  simp [List.zipIdx_map, List.map_map, Function.comp_def]

theorem cell_lt_of_mem_entriesOf {topo : Topo} {e : Entry} (h : e ∈ entriesOf topo) :
    e.cell < topo.length := by
  have := mem_entriesOf.1 h
  unfold nodeAt at this
  by_contra hc
  rw [List.getElem?_eq_none (by omega)] at this
  simp at this

theorem cellsAtNodesDicts_eq {topo : Topo} (hne : topo.flatten ≠ []) (cellIDs : Option (List Nat))
    (hc : ∀ l, cellIDs = some l → l.length = topo.length) :
    cellsAtNodesDicts topo cellIDs =
      some ((npUnique topo.flatten).map fun n => (n, (atNode (entriesOf topo) n).map fun e =>
          (cellIDs.getD (List.range topo.length)).getD e.cell 0),
        (npUnique topo.flatten).map fun n => (n, (atNode (entriesOf topo) n).map Entry.pos)) := by
  set cIDs := cellIDs.getD (List.range topo.length) with hcIDs
  have hcl : cIDs.length = topo.length := by
    cases cellIDs with
    | none => simp [hcIDs]
    | some l => simpa [hcIDs] using hc l rfl
  obtain ⟨mx, hmx⟩ := maxNode?_ne_none hne
  have hreg : ∃ b, isRegular topo = some b := by
    unfold isRegular
    rw [hmx]
    cases hmn : minNode? topo.flatten with
    | none => cases hf : topo.flatten with
      | nil => exact absurd hf hne
      | cons a l => rw [hf] at hmn; simp [minNode?] at hmn
    | some mn => exact ⟨_, rfl⟩
  obtain ⟨b, hb⟩ := hreg
  obtain ⟨mx', hmx', hbb⟩ := isRegular_spec hb
  rw [hmx] at hmx'
  obtain rfl := Option.some.inj hmx'
  set u := npUnique topo.flatten with hu
  cases b with
  | true =>
    have hur : u = List.range (mx + 1) := hbb.1 rfl
    obtain ⟨s, cmax, hs, hi⟩ := cellsAtNodesReg_spec hmx
    have := nodalCellDataToDicts_spec hi (cellIDs := cIDs) (nodeIDs := List.range (mx + 1)) (by simp)
      List.nodup_range (fun e he => by rw [hcl]; exact cell_lt_of_mem_entriesOf he)
    simp only [cellsAtNodesDicts, hb, Option.bind_eq_bind, Option.bind_some, if_true, hs, hi.lc, ← hcIDs, this]
    rw [hur]
    congr 2
    · apply List.map_congr_left
      intro i hi'
      have : i < mx + 1 := List.mem_range.1 hi'
      simp [this]
    · apply List.map_congr_left
      intro i hi'
      have : i < mx + 1 := List.mem_range.1 hi'
      simp [this]
  | false =>
    have ht : (regularize topo).1 = topo.map (List.map fun x => u.idxOf x) := regularize_fst topo
    set t := (regularize topo).1 with htd
    have htf : t.flatten = topo.flatten.map fun x => u.idxOf x := by
      rw [ht, List.map_flatten]
    have hpos : 0 < u.length := by
      obtain ⟨x, hx⟩ := List.exists_mem_of_ne_nil _ hne
      exact List.length_pos_of_mem (mem_npUnique.2 hx)
    have hmt : maxNode? t.flatten = some (u.length - 1) := by
      rw [maxNode?_spec, htf]
      constructor
      · have hlt : u.length - 1 < u.length := by omega
        have hmem : u[u.length - 1] ∈ topo.flatten := mem_npUnique.1 (List.getElem_mem hlt)
        refine List.mem_map.2 ⟨_, hmem, ?_⟩
        exact (nodup_npUnique topo.flatten).idxOf_getElem _ hlt
      · intro x hx
        obtain ⟨y, hy, rfl⟩ := List.mem_map.1 hx
        have := List.idxOf_lt_length_of_mem (mem_npUnique.2 hy)
        have h2 : u.idxOf y < u.length := this
        show u.idxOf y ≤ u.length - 1
        omega
    obtain ⟨s, cmax, hs, hi⟩ := cellsAtNodesReg_spec hmt
    have hN : u.length - 1 + 1 = u.length := by omega
    rw [hN] at hi
    have := nodalCellDataToDicts_spec hi (cellIDs := cIDs) (nodeIDs := u) rfl (nodup_npUnique _)
      (fun e he => by
        rw [hcl]
        have := cell_lt_of_mem_entriesOf he
        rwa [ht, List.length_map] at this)
    have h2 : (regularize topo).2 = u := rfl
    simp only [cellsAtNodesDicts, hb, Option.bind_eq_bind, Option.bind_some, ← htd, hs, ← hcIDs, h2,
      this, Bool.false_eq_true, if_false]
    have hat : ∀ i (hi : i < u.length), ∀ {β : Type} (f : Nat → Nat → β),
        (atNode (entriesOf t) i).map (fun e => f e.cell e.pos) =
        (atNode (entriesOf topo) u[i]).map (fun e => f e.cell e.pos) := by
      intro i hi β f
      rw [ht, entriesOf_map]
      unfold atNode
      rw [List.filter_map, List.map_map]
      have hfe : (entriesOf topo).filter ((fun e : Entry => e.node == i) ∘ fun e => ⟨e.cell, e.pos, u.idxOf e.node⟩)
          = (entriesOf topo).filter fun e => e.node == u[i] := by
        apply List.filter_congr
        intro e he
        have hmem : e.node ∈ u := mem_npUnique.2 (mem_flatten_of_nodeAt (mem_entriesOf.1 he))
        rw [Bool.eq_iff_iff]
        simp only [Function.comp, beq_iff_eq]
        constructor
        · rintro rfl; simp
        · intro h; rw [h]; exact (nodup_npUnique topo.flatten).idxOf_getElem _ hi
      rw [hfe]
      rfl
    have hmapr : ∀ {β : Type} (f : Nat → β), (List.range u.length).map (fun i => f (u.getD i 0)) = u.map f := by
      intro β f
      apply List.ext_getElem?
      intro n
      by_cases h : n < u.length
      · simp [List.getElem?_range h, List.getElem?_eq_getElem h]
      · rw [List.getElem?_eq_none (by simp; omega), List.getElem?_eq_none (by simp; omega)]
    congr 2
    · rw [← hmapr (fun n => (n, (atNode (entriesOf topo) n).map fun e => cIDs.getD e.cell 0))]
      apply List.map_congr_left
      intro i hi'
      have hlt : i < u.length := List.mem_range.1 hi'
      have := hat i hlt (fun c _ => cIDs.getD c 0)
      rw [this]; simp [List.getElem?_eq_getElem hlt]
    · rw [← hmapr (fun n => (n, (atNode (entriesOf topo) n).map Entry.pos))]
      apply List.map_congr_left
      intro i hi'
      have hlt : i < u.length := List.mem_range.1 hi'
      have := hat i hlt (fun _ p => p)
      have h3 : (atNode (entriesOf t) i).map Entry.pos = (atNode (entriesOf topo) u[i]).map Entry.pos := this
      rw [h3]; simp [List.getElem?_eq_getElem hlt]

theorem incidence_atNode (topo : Topo) (n : Nat) :
    IncidenceList topo n ((atNode (entriesOf topo) n).map fun e => (e.cell, e.pos)) := by
  constructor
  · rw [List.pairwise_map]
    exact ((pairwise_entriesOf topo).filter _).imp fun h => h
  · intro c j
    simp only [List.mem_map, atNode, List.mem_filter, Prod.mk.injEq, beq_iff_eq]
    constructor
    · rintro ⟨e, ⟨he, rfl⟩, rfl, rfl⟩; exact mem_entriesOf.1 he
    · intro h; exact ⟨⟨c, j, n⟩, ⟨mem_entriesOf.2 h, rfl⟩, rfl, rfl⟩

end PM
