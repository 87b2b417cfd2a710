import Verif.Copy
import Verif.PropsWalk

/-!
# C81: copies of meshes
-/

namespace PM

section
variable {P D : Type}

/-- Specification: `s` is the closest block at or above the path `p` that has points, and `k` is the place of its points. -/
structure ClosestRef (m : List (HBlock D)) (p : List Nat) (s : HBlock D) (k : Nat) : Prop where
  mem : s ∈ m
  pts : s.pts = some k
  above : s.path <:+ p
  closest : ∀ b ∈ m, b.pts.isSome → b.path <:+ p → b.path.length ≤ s.path.length

/-- A mesh tree: the root comes first, and no block comes after a block beneath it or at the same path. -/
structure HTree (m : List (HBlock D)) : Prop where
  root : ∃ r rest, m = r :: rest ∧ r.path = []
  order : m.Pairwise fun a b => ¬ b.path <:+ a.path

/-- Specification: the points at the places `k` and `k'` of two stores have the same coordinates and data. -/
def SameData (st st' : List (PData P D)) (k k' : Nat) : Prop :=
  ∃ q q', st[k]? = some q ∧ st'[k']? = some q' ∧ q'.x = q.x ∧ q'.fields = q.fields

/-- Specification: `b'` is a copy of the block `b`: the same path, the same points and cells with the same data. All points it has or
its cells refer to were made for the copy. -/
structure Copied (st st' : List (PData P D)) (b b' : HBlock D) : Prop where
  path : b'.path = b.path
  pts : (b.pts = none ∧ b'.pts = none) ∨
    ∃ k k', b.pts = some k ∧ b'.pts = some k' ∧ st.length ≤ k' ∧ SameData st st' k k'
  cells : (b.cells = none ∧ b'.cells = none) ∨
    ∃ c c', b.cells = some c ∧ b'.cells = some c' ∧ c'.topo = c.topo ∧ c'.fields = c.fields
  refs : b.cells.isSome → ∃ k k', b.ref = .points k ∧ b'.ref = .points k' ∧ st.length ≤ k' ∧ SameData st st' k k'

/-- Specification: the cells of every block refer to the points of the closest block that has points. -/
def Linked (m : List (HBlock D)) : Prop := ∀ b ∈ m, b.cells.isSome → ∃ s k, ClosestRef m b.path s k ∧ b.ref = .points k

theorem HTree.nodup {m : List (HBlock D)} (h : HTree m) : (m.map HBlock.path).Nodup := by
  unfold List.Nodup
  rw [List.pairwise_map]
  exact h.order.imp fun {a b} hab he => hab (by rw [he])

theorem find_path {m : List (HBlock D)} (hm : (m.map HBlock.path).Nodup) {b : HBlock D} (hb : b ∈ m) :
    (m.find? fun c => c.path = b.path) = some b := by
  induction m with
  | nil => cases hb
  | cons a m ih =>
    rw [List.map_cons, List.nodup_cons] at hm
    rcases List.mem_cons.1 hb with rfl | hb
    · simp
    · have : a.path ≠ b.path := fun h => hm.1 (h ▸ List.mem_map_of_mem hb)
      rw [List.find?_cons_of_neg (by simpa using this)]
      exact ih hm.2 hb

/-- The points of the block at a path. -/
def ptsRef (m : List (HBlock D)) (r : List Nat) : Option Nat := (m.find? fun b => b.path = r).bind HBlock.pts

theorem sourceRef_nil (m : List (HBlock D)) : sourceRef m [] = ptsRef m [] := by
  unfold sourceRef ptsRef
  congr

theorem sourceRef_cons (m : List (HBlock D)) (a : Nat) (p : List Nat) :
    sourceRef m (a :: p) = (ptsRef m (a :: p)).orElse fun _ => sourceRef m p := by
  conv_lhs => unfold sourceRef
  unfold ptsRef
  cases (m.find? fun b => decide (b.path = a :: p)).bind HBlock.pts <;> rfl

theorem ptsRef_mem {m : List (HBlock D)} (hm : (m.map HBlock.path).Nodup) {b : HBlock D} (hb : b ∈ m) :
    ptsRef m b.path = b.pts := by
  unfold ptsRef
  rw [find_path hm hb]
  rfl

theorem ptsRef_some {m : List (HBlock D)} {r : List Nat} {k : Nat} (h : ptsRef m r = some k) :
    ∃ b ∈ m, b.path = r ∧ b.pts = some k := by
  obtain ⟨b, hb, hbk⟩ := Option.bind_eq_some_iff.1 h
  exact ⟨b, List.mem_of_find?_eq_some hb, by simpa using List.find?_some hb, hbk⟩

theorem sourceRef_of_closest {m : List (HBlock D)} (hm : (m.map HBlock.path).Nodup) {p : List Nat} {s : HBlock D} {k : Nat}
    (h : ClosestRef m p s k) : sourceRef m p = some k := by
  induction p with
  | nil =>
    have : s.path = [] := List.suffix_nil.1 h.above
    rw [sourceRef_nil, ← this, ptsRef_mem hm h.mem, h.pts]
  | cons a p ih =>
    rw [sourceRef_cons]
    rcases List.suffix_cons_iff.1 h.above with he | hs
    · rw [← he, ptsRef_mem hm h.mem, h.pts]
      rfl
    · cases hf : ptsRef m (a :: p) with
      | none => exact ih ⟨h.mem, h.pts, hs, fun b hb hp hs' => h.closest b hb hp (hs'.trans (List.suffix_cons _ _))⟩
      | some k' =>
        obtain ⟨b, h2, h1, hbk⟩ := ptsRef_some hf
        have h3 := h.closest b h2 (by rw [hbk]; rfl) (by rw [h1])
        rw [h1] at h3
        have := hs.length_le
        simp at h3
        omega

theorem closest_of_sourceRef {m : List (HBlock D)} (hm : (m.map HBlock.path).Nodup) {p : List Nat} {k : Nat}
    (h : sourceRef m p = some k) : ∃ s, ClosestRef m p s k := by
  induction p with
  | nil =>
    rw [sourceRef_nil] at h
    obtain ⟨b, hb, h1, hbk⟩ := ptsRef_some h
    exact ⟨b, hb, hbk, by rw [h1], fun b' _ _ hs => by rw [List.suffix_nil.1 hs]; simp⟩
  | cons a p ih =>
    rw [sourceRef_cons] at h
    cases hf : ptsRef m (a :: p) with
    | some k' =>
      rw [hf] at h
      obtain rfl := Option.some.inj h
      obtain ⟨b, hb, h1, hbk⟩ := ptsRef_some hf
      exact ⟨b, hb, hbk, by rw [h1], fun b' _ _ hs => by rw [h1]; exact hs.length_le⟩
    | none =>
      rw [hf] at h
      obtain ⟨s, hs⟩ := ih h
      refine ⟨s, hs.mem, hs.pts, hs.above.trans (List.suffix_cons _ _), fun b hb hp hsuf => ?_⟩
      rcases List.suffix_cons_iff.1 hsuf with he | hsuf
      · rw [← he, ptsRef_mem hm hb] at hf
        rw [hf] at hp
        cases hp
      · exact hs.closest b hb hp hsuf

/-- Blocks that are not above a path, or have no points, do not matter for the source. -/
theorem sourceRef_append {m l : List (HBlock D)} {p : List Nat} (h : ∀ b ∈ l, b.path <:+ p → b.pts = none) :
    sourceRef (m ++ l) p = sourceRef m p := by
  have hfind : ∀ r, r <:+ p → ptsRef (m ++ l) r = ptsRef m r := by
    intro r hr
    unfold ptsRef
    rw [List.find?_append]
    cases hf : m.find? fun b => decide (b.path = r) with
    | some b => rfl
    | none =>
      rw [Option.none_or]
      cases hg : l.find? fun b => decide (b.path = r) with
      | none => rfl
      | some b =>
        have h1 : b.path = r := by simpa using List.find?_some hg
        exact h b (List.mem_of_find?_eq_some hg) (by rw [h1]; exact hr)
  clear h
  induction p with
  | nil => rw [sourceRef_nil, sourceRef_nil]; exact hfind [] List.nil_suffix
  | cons a p ih =>
    rw [sourceRef_cons, sourceRef_cons, hfind _ (List.suffix_refl _), ih fun r hr => hfind r (hr.trans (List.suffix_cons _ _))]

theorem find_copied {st st' : List (PData P D)} {m m' : List (HBlock D)} (h : List.Forall₂ (Copied st st') m m') (r : List Nat) :
    (∃ k k', ptsRef m r = some k ∧ ptsRef m' r = some k' ∧ SameData st st' k k') ∨ (ptsRef m r = none ∧ ptsRef m' r = none) := by
  unfold ptsRef
  induction h with
  | nil => exact Or.inr ⟨rfl, rfl⟩
  | @cons a a' l l' h1 h2 ih =>
    by_cases ha : a.path = r
    · have ha' : a'.path = r := h1.path.trans ha
      rw [List.find?_cons_of_pos (by simpa using ha), List.find?_cons_of_pos (by simpa using ha')]
      rcases h1.pts with ⟨e1, e2⟩ | ⟨k, k', e1, e2, -, e3⟩
      · exact Or.inr ⟨by simp [e1], by simp [e2]⟩
      · exact Or.inl ⟨k, k', by simp [e1], by simp [e2], e3⟩
    · have ha' : a'.path ≠ r := fun he => ha (h1.path.symm.trans he)
      rw [List.find?_cons_of_neg (by simpa using ha), List.find?_cons_of_neg (by simpa using ha')]
      exact ih

theorem sourceRef_copied {st st' : List (PData P D)} {m m' : List (HBlock D)} (h : List.Forall₂ (Copied st st') m m')
    {p : List Nat} {k : Nat} (hk : sourceRef m p = some k) : ∃ k', sourceRef m' p = some k' ∧ SameData st st' k k' := by
  induction p with
  | nil =>
    rw [sourceRef_nil] at hk ⊢
    rcases find_copied h [] with ⟨a, b, h1, h2, h3⟩ | ⟨h1, h2⟩
    · rw [h1] at hk
      obtain rfl := Option.some.inj hk
      exact ⟨b, h2, h3⟩
    · rw [h1] at hk
      cases hk
  | cons a p ih =>
    rw [sourceRef_cons] at hk ⊢
    rcases find_copied h (a :: p) with ⟨c, b, h1, h2, h3⟩ | ⟨h1, h2⟩
    · rw [h1] at hk
      obtain rfl := Option.some.inj hk
      exact ⟨b, by rw [h2]; rfl, h3⟩
    · rw [h1] at hk
      rw [h2]
      exact ih hk

/-- Points keep their coordinates and data. -/
def KeepsData (st st' : List (PData P D)) : Prop :=
  ∀ (k : Nat) (q : PData P D), st[k]? = some q → ∃ q', st'[k]? = some q' ∧ q'.x = q.x ∧ q'.fields = q.fields

theorem KeepsData.refl (st : List (PData P D)) : KeepsData st st := fun _ q hq => ⟨q, hq, rfl, rfl⟩

theorem KeepsData.trans {a b c : List (PData P D)} (h1 : KeepsData a b) (h2 : KeepsData b c) : KeepsData a c := by
  intro k q hq
  obtain ⟨q1, e1, e2, e3⟩ := h1 k q hq
  obtain ⟨q2, f1, f2, f3⟩ := h2 k q1 e1
  exact ⟨q2, f1, f2.trans e2, f3.trans e3⟩

theorem keeps_append (st l : List (PData P D)) : KeepsData st (st ++ l) := fun k q hq =>
  ⟨q, by rw [List.getElem?_append_left (List.getElem?_eq_some_iff.1 hq).1]; exact hq, rfl, rfl⟩

theorem renumber_get (st : List (PData P D)) (h k : Nat) : (renumber st h)[k]? =
    (st[k]?).map fun q => if h = k then { q with id := List.range q.x.length } else q := by
  unfold renumber
  rw [List.getElem?_modify]
  split <;> cases st[k]? <;> simp_all

theorem keeps_renumber (st : List (PData P D)) (h : Nat) : KeepsData st (renumber st h) := by
  intro k q hq
  rw [renumber_get, hq]
  refine ⟨_, rfl, ?_⟩
  split <;> exact ⟨rfl, rfl⟩

theorem SameData.keeps {st a b : List (PData P D)} {k k' : Nat} (h : SameData st a k k') (hk : KeepsData a b) :
    SameData st b k k' := by
  obtain ⟨q, q', h1, h2, h3, h4⟩ := h
  obtain ⟨q2, f1, f2, f3⟩ := hk _ _ h2
  exact ⟨q, q2, h1, f1, f2.trans h3, f3.trans h4⟩

theorem Copied.keeps {st a b : List (PData P D)} {x y : HBlock D} (h : Copied st a x y) (hk : KeepsData a b) : Copied st b x y where
  path := h.path
  pts := h.pts.imp_right fun ⟨k, k', e1, e2, e3, e4⟩ => ⟨k, k', e1, e2, e3, e4.keeps hk⟩
  cells := h.cells
  refs := fun hc => let ⟨k, k', e1, e2, e3, e4⟩ := h.refs hc; ⟨k, k', e1, e2, e3, e4.keeps hk⟩

/-- What is known while a copy is made: the old points are unchanged, copied points have the data of the originals, and their
ids or new ones. -/
structure CopyOK (st : List (PData P D)) (s : CopyState P D) : Prop where
  old : ∀ k, k < st.length → s.st[k]? = st[k]?
  long : st.length ≤ s.st.length
  memo : ∀ k k', (k, k') ∈ s.memo → st.length ≤ k' ∧ ∃ q q', st[k]? = some q ∧ s.st[k']? = some q' ∧ q'.x = q.x ∧
    q'.fields = q.fields ∧ (q'.id = q.id ∨ q'.id = List.range q.x.length)

theorem copyPts_spec {st : List (PData P D)} {s : CopyState P D} (hs : CopyOK st s) (deep : Bool) {h : Nat} (hh : h < st.length) :
    ∃ s' h', copyPts deep s h = some (s', h') ∧ CopyOK st s' ∧ KeepsData s.st s'.st ∧ st.length ≤ h' ∧
      (∃ q q', st[h]? = some q ∧ s'.st[h']? = some q' ∧ q'.x = q.x ∧ q'.fields = q.fields ∧
        (q'.id = q.id ∨ q'.id = List.range q.x.length)) ∧ (deep = true → s'.memo.lookup h = some h') := by
  unfold copyPts
  cases hl : (if deep = true then s.memo.lookup h else none) with
  | some h' =>
    have hd : deep = true := by
      by_contra hd
      rw [if_neg hd] at hl
      cases hl
    rw [if_pos hd] at hl
    obtain ⟨l1, l2, hml, -⟩ := List.lookup_eq_some_iff.1 hl
    have hmem : (h, h') ∈ s.memo := by rw [hml]; simp
    obtain ⟨h1, h2⟩ := hs.memo h h' hmem
    exact ⟨s, h', rfl, hs, KeepsData.refl _, h1, h2, fun _ => hl⟩
  | none =>
    have hq : st[h]? = some st[h] := List.getElem?_eq_getElem hh
    refine ⟨_, _, by rw [hs.old h hh, hq]; rfl, ⟨?_, ?_, ?_⟩, keeps_append _ _, hs.long, ⟨st[h], st[h], hq, by simp, rfl, rfl, Or.inl rfl⟩, fun _ => by simp⟩
    · intro k hk
      rw [List.getElem?_append_left (lt_of_lt_of_le hk hs.long)]
      exact hs.old k hk
    · rw [List.length_append]
      exact hs.long.trans (Nat.le_add_right _ _)
    · intro k k' hk
      rcases List.mem_cons.1 hk with he | hk
      · obtain ⟨rfl, rfl⟩ := Prod.mk.inj he
        exact ⟨hs.long, st[k], st[k], hq, by simp, rfl, rfl, Or.inl rfl⟩
      · obtain ⟨h1, q, q', h2, h3, h4⟩ := hs.memo k k' hk
        exact ⟨h1, q, q', h2, by rw [List.getElem?_append_left (List.getElem?_eq_some_iff.1 h3).1]; exact h3, h4⟩

theorem renumber_ok {st : List (PData P D)} {s : CopyState P D} (hs : CopyOK st s) {h : Nat} (hh : st.length ≤ h) :
    CopyOK st ⟨renumber s.st h, s.memo⟩ where
  old := by
    intro k hk
    rw [renumber_get, hs.old k hk]
    have : h ≠ k := by omega
    simp [this]
  long := by
    simpa [renumber] using hs.long
  memo := by
    intro k k' hk
    obtain ⟨h1, q, q', h2, h3, h4, h5, h6⟩ := hs.memo k k' hk
    refine ⟨h1, q, _, h2, by rw [renumber_get, h3]; rfl, ?_⟩
    split
    · exact ⟨h4, h5, Or.inr (by simp [h4])⟩
    · exact ⟨h4, h5, h6⟩

/-- The constructor does not change the cells if the points are numbered from 0. -/
theorem ctorTopo_range {st : List (PData P D)} {h : Nat} {q : PData P D} (hq : st[h]? = some q) (hid : q.id = List.range q.x.length)
    {c : CData D} (hc : ∀ n ∈ c.topo.flatten, n < q.x.length) : ctorTopo st (some h) c = some c.topo := by
  show (st[h]?).bind (fun q => rewire c.topo (.arr q.id) true) = _
  rw [hq, Option.bind_some, hid]
  show remapTopo _ _ = _
  rw [remapTopo_some (g := id)]
  · simp
  · intro row hrow x hx
    have hx' := hc x (List.mem_flatten.2 ⟨row, hrow, hx⟩)
    show (indsToInvmapAsDict (List.range q.x.length)).get? x = some x
    rw [invmap_get? List.nodup_range, if_pos (List.mem_range.2 hx')]
    have h1 := List.nodup_range.idxOf_getElem (xs := List.range q.x.length) x (by simpa using hx')
    rw [List.getElem_range] at h1
    rw [h1]

/-- What is needed of a block to be copied: its points and the points its cells refer to are in the store. -/
structure CopyBlockOK (st : List (PData P D)) (b : HBlock D) : Prop where
  pts : ∀ k, b.pts = some k → k < st.length
  ref : b.cells.isSome → ∃ k, b.ref = .points k ∧ k < st.length

theorem copySelf_spec {st : List (PData P D)} {s : CopyState P D} (hs : CopyOK st s) (deep : Bool) {b : HBlock D}
    (hb : CopyBlockOK st b) (hp : b.path = []) : ∃ s' b', copySelf deep s b = some (s', b') ∧ CopyOK st s' ∧ Copied st s'.st b b' ∧
      KeepsData s.st s'.st ∧ (deep = true → ∀ k, b.cells.isSome → b.pts = some k → b.ref = .points k → ∃ k', b'.pts = some k' ∧ b'.ref = .points k') := by
  have h1 : ∃ s1 o, copyOptPts deep s b.pts = some (s1, o) ∧ CopyOK st s1 ∧ KeepsData s.st s1.st ∧
      ((b.pts = none ∧ o = none) ∨ ∃ k k', b.pts = some k ∧ o = some k' ∧ st.length ≤ k' ∧ SameData st s1.st k k') ∧
      (deep = true → ∀ k, b.pts = some k → ∃ k', o = some k' ∧ s1.memo.lookup k = some k') := by
    cases hbp : b.pts with
    | none => exact ⟨s, none, rfl, hs, KeepsData.refl _, Or.inl ⟨rfl, rfl⟩, fun _ k hk => by cases hk⟩
    | some k =>
      obtain ⟨s1, k', e1, e2, e3, e4, ⟨q, q', e5, e6, e7, e8, -⟩, e9⟩ := copyPts_spec hs deep (hb.pts k hbp)
      refine ⟨s1, some k', by simp [copyOptPts, e1], e2, e3, Or.inr ⟨k, k', rfl, rfl, e4, q, q', e5, e6, e7, e8⟩, ?_⟩
      intro hd k2 hk2
      obtain rfl := Option.some.inj hk2
      exact ⟨k', rfl, e9 hd⟩
  obtain ⟨s1, o, f1, f2, f3, f4, f5⟩ := h1
  cases hc : b.cells with
  | none =>
    refine ⟨s1, ⟨[], o, none, .nothing⟩, ?_, f2, ⟨hp.symm, f4, Or.inl ⟨hc, rfl⟩, fun h => ?_⟩, f3, fun _ k h => by cases h⟩
    · simp [copySelf, f1, copyCellRef, hc]
    · rw [hc] at h; cases h
  | some c =>
    obtain ⟨k, hk, hkl⟩ := hb.ref (by rw [hc]; rfl)
    obtain ⟨s2, k', e1, e2, e3, e4, ⟨q, q', e5, e6, e7, e8, -⟩, e9⟩ := copyPts_spec f2 deep hkl
    refine ⟨s2, ⟨[], o, some c, .points k'⟩, ?_, e2, ⟨hp.symm, f4.imp_right ?_, Or.inr ⟨c, c, hc, rfl, rfl, rfl⟩, fun _ => ?_⟩, f3.trans e3, ?_⟩
    · simp [copySelf, f1, copyCellRef, hc, hk, copyRef, e1]
    · rintro ⟨a, a', g1, g2, g3, g4⟩
      exact ⟨a, a', g1, g2, g3, g4.keeps e3⟩
    · exact ⟨k, k', hk, rfl, e4, q, q', e5, e6, e7, e8⟩
    · intro hd k2 _ hk2 hr2
      rw [hk] at hr2
      injection hr2 with hr2
      subst hr2
      obtain ⟨k3, g1, g2⟩ := f5 hd _ hk2
      refine ⟨k3, g1, ?_⟩
      unfold copyPts at e1
      rw [if_pos hd, g2] at e1
      rw [(Prod.mk.inj (Option.some.inj e1)).2]

theorem copyOptPts_spec {st : List (PData P D)} {s : CopyState P D} (hs : CopyOK st s) (deep : Bool) {o : Option Nat}
    (ho : ∀ k, o = some k → k < st.length) : ∃ s' o', copyOptPts deep s o = some (s', o') ∧ CopyOK st s' ∧ KeepsData s.st s'.st ∧
      ((o = none ∧ o' = none) ∨ ∃ k k', o = some k ∧ o' = some k' ∧ st.length ≤ k' ∧ ∃ q q', st[k]? = some q ∧ s'.st[k']? = some q' ∧
        q'.x = q.x ∧ q'.fields = q.fields ∧ (q'.id = q.id ∨ q'.id = List.range q.x.length)) := by
  cases o with
  | none => exact ⟨s, none, rfl, hs, KeepsData.refl _, Or.inl ⟨rfl, rfl⟩⟩
  | some k =>
    obtain ⟨s1, k', e1, e2, e3, e4, e5, -⟩ := copyPts_spec hs deep (ho k rfl)
    exact ⟨s1, some k', by simp [copyOptPts, e1], e2, e3, Or.inr ⟨k, k', rfl, rfl, e4, e5⟩⟩

theorem copyCellRef_spec {st : List (PData P D)} {s : CopyState P D} (hs : CopyOK st s) (deep : Bool) {b : HBlock D}
    (hb : CopyBlockOK st b) : ∃ s' r, copyCellRef deep s b = some (s', r) ∧ CopyOK st s' ∧ KeepsData s.st s'.st ∧
      ∀ (k' : Nat) (q' : PData P D), s.st[k']? = some q' → s'.st[k']? = some q' := by
  unfold copyCellRef
  split
  · rename_i hc
    obtain ⟨k, hk, hkl⟩ := hb.ref hc
    obtain ⟨s1, k', e1, e2, e3, -⟩ := copyPts_spec hs deep hkl
    refine ⟨s1, .points k', by simp [hk, copyRef, e1], e2, e3, ?_⟩
    intro k2 q2 h2
    unfold copyPts at e1
    split at e1
    · rw [← (Prod.mk.inj (Option.some.inj e1)).1]
      exact h2
    · obtain ⟨q, -, h3⟩ := Option.map_eq_some_iff.1 e1
      rw [← (Prod.mk.inj h3).1]
      show (s.st ++ [q])[k2]? = _
      rw [List.getElem?_append_left (List.getElem?_eq_some_iff.1 h2).1]
      exact h2
  · exact ⟨s, .nothing, rfl, hs, KeepsData.refl _, fun _ _ h => h⟩

/-- One block beneath the root. -/
theorem copyChild_spec {st : List (PData P D)} {s : CopyState P D} (hs : CopyOK st s) (deep : Bool) {b : HBlock D}
    (hb : CopyBlockOK st b) {m0 acc : List (HBlock D)} (hacc : List.Forall₂ (Copied st s.st) m0 acc) (next : Nat)
    (hsrc : b.cells.isSome → b.pts = none → ∃ k, sourceRef m0 b.path = some k ∧ b.ref = .points k ∧ ∀ k', sourceRef acc b.path = some k' → st.length ≤ k')
    (hown : ∀ k c, b.cells = some c → b.pts = some k → b.ref = .points k ∧ ∃ q, st[k]? = some q ∧ q.id = List.range q.x.length ∧
      ∀ n ∈ c.topo.flatten, n < q.x.length) :
    ∃ s' b', copyChild deep s acc next b = some (s', b') ∧ CopyOK st s' ∧ KeepsData s.st s'.st ∧ Copied st s'.st b b' ∧
      (b.cells.isSome → ∃ k', b'.ref = .points k' ∧ (b'.pts = some k' ∨ b'.pts = none ∧ sourceRef acc b.path = some k')) := by
  obtain ⟨s1, o, f1, f2, f3, f4⟩ := copyOptPts_spec hs deep hb.pts
  obtain ⟨s2, r, g1, g2, g3, g4⟩ := copyCellRef_spec f2 deep hb
  have hok : ∃ st', ctorStore s2.st o = st' ∧ CopyOK st ⟨st', s2.memo⟩ ∧ KeepsData s2.st st' := by
    rcases f4 with ⟨-, rfl⟩ | ⟨k, k', -, rfl, h1, -⟩
    · exact ⟨_, rfl, g2, KeepsData.refl _⟩
    · exact ⟨_, rfl, renumber_ok g2 h1, keeps_renumber _ _⟩
  obtain ⟨st', e1, e2, e3⟩ := hok
  have hpts : (b.pts = none ∧ o = none) ∨ ∃ k k', b.pts = some k ∧ o = some k' ∧ st.length ≤ k' ∧ SameData st st' k k' := by
    refine f4.imp_right ?_
    rintro ⟨k, k', h1, h2, h3, q, q', h4, h5, h6, h7, -⟩
    exact ⟨k, k', h1, h2, h3, SameData.keeps ⟨q, q', h4, h5, h6, h7⟩ (g3.trans e3)⟩
  cases hc : b.cells with
  | none =>
    refine ⟨⟨st', s2.memo⟩, ⟨b.path, o, none, .nothing⟩, ?_, e2, (f3.trans g3).trans e3,
      ⟨rfl, hpts, Or.inl ⟨hc, rfl⟩, fun h => by rw [hc] at h; cases h⟩, fun h => by cases h⟩
    unfold copyChild
    rw [f1, Option.bind_some]
    dsimp only
    rw [g1, Option.bind_some]
    dsimp only
    rw [e1]
    simp only [hc]
  | some c =>
    have hcs : b.cells.isSome := by rw [hc]; rfl
    have htopo : ctorTopo s2.st o c = some c.topo := by
      rcases f4 with ⟨-, rfl⟩ | ⟨k, k', h1, rfl, h3, q, q', h4, h5, h6, h7, h8⟩
      · rfl
      · obtain ⟨-, q2, h9, h10, h11⟩ := hown k c hc h1
        rw [h4] at h9
        obtain rfl := Option.some.inj h9
        refine ctorTopo_range (g4 _ _ h5) ?_ (by rw [h6]; exact h11)
        rw [h6]
        rcases h8 with h8 | h8
        · rw [h8, h10]
        · exact h8
    have href : ∃ k k', joinRef acc b.path o = some k' ∧ b.ref = .points k ∧ st.length ≤ k' ∧ SameData st st' k k' ∧
          (o = some k' ∨ o = none ∧ sourceRef acc b.path = some k') := by
      rcases hpts with ⟨h1, rfl⟩ | ⟨k, k', h1, rfl, h3, h4⟩
      · obtain ⟨k, h2, h3, h5⟩ := hsrc hcs h1
        obtain ⟨k', h4, h6⟩ := sourceRef_copied hacc h2
        exact ⟨k, k', h4, h3, h5 k' h4, h6.keeps ((f3.trans g3).trans e3), Or.inr ⟨rfl, h4⟩⟩
      · exact ⟨k, k', rfl, (hown k c hc h1).1, h3, h4, Or.inl rfl⟩
    obtain ⟨k, k', h1, h2, h3, h4, h5⟩ := href
    refine ⟨⟨st', s2.memo⟩, ⟨b.path, o, some { c with topo := c.topo, id := List.range' next c.topo.length }, .points k'⟩, ?_, e2,
      (f3.trans g3).trans e3, ⟨rfl, hpts, Or.inr ⟨c, _, hc, rfl, rfl, rfl⟩, fun _ => ⟨k, k', h2, rfl, h3, h4⟩⟩, fun _ => ⟨k', rfl, h5⟩⟩
    unfold copyChild
    rw [f1, Option.bind_some]
    dsimp only
    rw [g1, Option.bind_some]
    dsimp only
    rw [e1]
    simp only [hc]
    rw [htopo, Option.bind_some, h1, Option.map_some]

/-- Every place that is used in the blocks of a copy was made for the copy. -/
theorem sourceRef_fresh {st st' : List (PData P D)} {m m' : List (HBlock D)} (h : List.Forall₂ (Copied st st') m m') {p : List Nat}
    {k : Nat} (hk : sourceRef m' p = some k) : st.length ≤ k := by
  have hp : ∀ r, ptsRef m' r = some k → st.length ≤ k := by
    intro r hr
    obtain ⟨b', hb', -, hb2⟩ := ptsRef_some hr
    obtain ⟨i, hi⟩ := List.mem_iff_getElem?.1 hb'
    clear hr hk
    induction h generalizing i with
    | nil => cases hb'
    | @cons a a' l l' h1 h2 ih =>
      rcases List.mem_cons.1 hb' with rfl | hb'
      · rcases h1.pts with ⟨-, e⟩ | ⟨_, k', -, e, h3, -⟩
        · rw [e] at hb2; cases hb2
        · rw [e] at hb2
          obtain rfl := Option.some.inj hb2
          exact h3
      · obtain ⟨j, hj⟩ := List.mem_iff_getElem?.1 hb'
        exact ih hb' j hj
  induction p with
  | nil => rw [sourceRef_nil] at hk; exact hp _ hk
  | cons a p ih =>
    rw [sourceRef_cons] at hk
    cases h1 : ptsRef m' (a :: p) with
    | none => rw [h1] at hk; exact ih hk
    | some k' => rw [h1] at hk; obtain rfl := Option.some.inj hk; exact hp _ h1

theorem copied_paths {st st' : List (PData P D)} {l l' : List (HBlock D)} (h : List.Forall₂ (Copied st st') l l') :
    l'.map HBlock.path = l.map HBlock.path := by
  induction h with
  | nil => rfl
  | cons h _ ih => rw [List.map_cons, List.map_cons, ih, h.path]

/-- The blocks of a copy so far are linked to their points. -/
def LinkedSo (deep : Bool) (acc : List (HBlock D)) : Prop :=
  ∀ b ∈ acc, b.cells.isSome → (deep = true ∨ b.path ≠ []) → ∃ k, sourceRef acc b.path = some k ∧ b.ref = .points k

theorem copyChildren_spec (deep : Bool) {st : List (PData P D)} (rest : List (HBlock D)) : ∀ (s : CopyState P D) (m0 acc : List (HBlock D)) (next : Nat),
    CopyOK st s → HTree (m0 ++ rest) → (∀ b ∈ m0 ++ rest, CopyBlockOK st b) → Linked (m0 ++ rest) →
    (∀ b ∈ rest, ∀ k c, b.cells = some c → b.pts = some k → ∃ q, st[k]? = some q ∧ q.id = List.range q.x.length ∧
      ∀ n ∈ c.topo.flatten, n < q.x.length) →
    List.Forall₂ (Copied st s.st) m0 acc → m0 ≠ [] → LinkedSo deep acc →
    ∃ s' m', copyChildren deep s acc next rest = some (s', m') ∧ CopyOK st s' ∧ List.Forall₂ (Copied st s'.st) (m0 ++ rest) m' ∧
      LinkedSo deep m' := by
  induction rest with
  | nil =>
    intro s m0 acc next hs _ _ _ _ hacc _ hl
    exact ⟨s, acc, rfl, hs, by simpa using hacc, hl⟩
  | cons b rest ih =>
    intro s m0 acc next hs ht hok hlink hids hacc hne hl
    have hord : ∀ c ∈ b :: rest, ∀ a ∈ m0, ¬ c.path <:+ a.path := by
      intro c hc a ha
      exact (List.pairwise_append.1 ht.order).2.2 a ha c hc
    have hord2 : ∀ c ∈ rest, ¬ c.path <:+ b.path := fun c hc =>
      (List.pairwise_cons.1 (List.pairwise_append.1 ht.order).2.1).1 c hc
    have hbm : b ∈ m0 ++ b :: rest := by simp
    have hsrc : b.cells.isSome → b.pts = none → ∃ k, sourceRef m0 b.path = some k ∧ b.ref = .points k ∧
        ∀ k', sourceRef acc b.path = some k' → st.length ≤ k' := by
      intro hc hp
      obtain ⟨src, k, h1, h2⟩ := hlink b hbm hc
      have h3 := sourceRef_of_closest ht.nodup h1
      rw [sourceRef_append] at h3
      · exact ⟨k, h3, h2, fun k' hk' => sourceRef_fresh hacc hk'⟩
      · intro c hc hsuf
        rcases List.mem_cons.1 hc with rfl | hc
        · exact hp
        · exact absurd hsuf (hord2 c hc)
    have hown : ∀ k c, b.cells = some c → b.pts = some k → b.ref = .points k ∧ ∃ q, st[k]? = some q ∧ q.id = List.range q.x.length ∧
        ∀ n ∈ c.topo.flatten, n < q.x.length := by
      intro k c hc hp
      refine ⟨?_, hids b List.mem_cons_self k c hc hp⟩
      obtain ⟨src, k2, h1, h2⟩ := hlink b hbm (by rw [hc]; rfl)
      have h3 : ClosestRef (m0 ++ b :: rest) b.path b k := ⟨hbm, hp, List.suffix_refl _, fun _ _ _ hs => hs.length_le⟩
      have h4 := sourceRef_of_closest ht.nodup h1
      rw [sourceRef_of_closest ht.nodup h3] at h4
      rw [h2, Option.some.inj h4]
    obtain ⟨s1, b', e1, e2, e3, e4, e5⟩ := copyChild_spec hs deep (hok b hbm) hacc next hsrc hown
    have hacc1 : List.Forall₂ (Copied st s1.st) m0 acc := hacc.imp fun _ _ h => h.keeps e3
    have hacc' : List.Forall₂ (Copied st s1.st) (m0 ++ [b]) (acc ++ [b']) :=
      List.rel_append hacc1 (List.Forall₂.cons e4 List.Forall₂.nil)
    have hpaths : ∀ a' ∈ acc, ∃ a ∈ m0, a'.path = a.path := by
      intro a' ha'
      obtain ⟨i, hi⟩ := List.mem_iff_getElem.1 ha'
      obtain ⟨hi, rfl⟩ := hi
      have hi0 : i < m0.length := by rw [hacc.length_eq]; exact hi
      exact ⟨m0[i], List.getElem_mem _, ((List.forall₂_iff_get.1 hacc).2 i hi0 hi).path⟩
    have hl' : LinkedSo deep (acc ++ [b']) := by
      intro a' ha' hc hd
      rcases List.mem_append.1 ha' with ha2 | ha'
      · obtain ⟨k, h1, h2⟩ := hl a' ha2 hc hd
        refine ⟨k, ?_, h2⟩
        rw [sourceRef_append]
        · exact h1
        · intro c hc hsuf
          obtain rfl := List.mem_singleton.1 hc
          obtain ⟨a, ha, he⟩ := hpaths a' ha2
          rw [e4.path, he] at hsuf
          exact absurd hsuf (hord b List.mem_cons_self a ha)
      · obtain rfl := List.mem_singleton.1 ha'
        have hbc : b.cells.isSome := by
          rcases e4.cells with ⟨-, h2⟩ | ⟨c, c', h1, -⟩
          · rw [h2] at hc; cases hc
          · rw [h1]; rfl
        obtain ⟨k', h1, h2⟩ := e5 hbc
        refine ⟨k', ?_, h1⟩
        rcases h2 with h2 | ⟨h2, h3⟩
        · have hn : ((acc ++ [a']).map HBlock.path).Nodup := by
            rw [List.map_append, List.nodup_append]
            refine ⟨?_, by simp, ?_⟩
            · have : acc.map HBlock.path = m0.map HBlock.path := copied_paths hacc
              rw [this]
              have := ht.nodup
              rw [List.map_append, List.nodup_append] at this
              exact this.1
            · intro x hx y hy
              obtain ⟨a, ha, rfl⟩ := List.mem_map.1 hx
              obtain ⟨a0, ha0, he⟩ := hpaths a ha
              simp only [List.map_cons, List.map_nil, List.mem_singleton] at hy
              subst hy
              rw [he, e4.path]
              intro h
              exact hord b List.mem_cons_self a0 ha0 (by rw [h])
          exact sourceRef_of_closest hn (s := a') ⟨by simp, h2, List.suffix_refl _, fun _ _ _ hs => hs.length_le⟩
        · rw [sourceRef_append, e4.path]
          · exact h3
          · intro c hc _
            obtain rfl := List.mem_singleton.1 hc
            exact h2
    have hre : m0 ++ b :: rest = (m0 ++ [b]) ++ rest := by simp
    rw [hre] at ht hok hlink
    obtain ⟨s', m', g1, g2, g3, g4⟩ := ih s1 (m0 ++ [b]) (acc ++ [b']) (next + b.ncells) e2 ht hok hlink
      (fun c hc => hids c (List.mem_cons_of_mem _ hc)) hacc' (by simp) hl'
    refine ⟨s', m', ?_, g2, by rw [hre]; exact g3, g4⟩
    unfold copyChildren
    rw [e1, Option.bind_some]
    exact g1

/-- **C81** copies of a mesh: if the cells of the mesh refer to the closest points, and blocks beneath the root with points and cells
have points numbered from 0, `copy` and `deepcopy` succeed; every block is copied with its points, cells and their data; all points of
the copy are new, and those of the original are not changed. In a deep copy, the cells of every block refer to the closest points of the
copy; in a shallow copy those of every block beneath the root. -/
theorem C81_copy_partial {st : List (PData P D)} {m : List (HBlock D)} (ht : HTree m) (deep : Bool)
    (hst : ∀ b ∈ m, ∀ k, b.pts = some k → k < st.length) (hlink : Linked m)
    (hids : ∀ b ∈ m, b.path ≠ [] → ∀ k c, b.cells = some c → b.pts = some k → ∃ q, st[k]? = some q ∧ q.id = List.range q.x.length ∧
      ∀ n ∈ c.topo.flatten, n < q.x.length) :
    ∃ st' m', copyTree deep st m = some (st', m') ∧ st <+: st' ∧ HTree m' ∧ List.Forall₂ (Copied st st') m m' ∧
      (∀ b ∈ m', b.cells.isSome → (deep = true ∨ b.path ≠ []) → ∃ s k, ClosestRef m' b.path s k ∧ b.ref = .points k) := by
  obtain ⟨r, rest, rfl, hr⟩ := ht.root
  have hrest : ∀ b ∈ rest, b.path ≠ [] := by
    intro b hb h
    exact (List.pairwise_cons.1 ht.order).1 b hb (by rw [h]; exact List.nil_suffix)
  have hok : ∀ b ∈ r :: rest, CopyBlockOK st b := by
    intro b hb
    refine ⟨hst b hb, fun hc => ?_⟩
    obtain ⟨s, k, h1, h2⟩ := hlink b hb hc
    exact ⟨k, h2, hst s h1.mem k h1.pts⟩
  have hs0 : CopyOK st (⟨st, []⟩ : CopyState P D) := ⟨fun _ _ => rfl, le_refl _, fun _ _ h => by cases h⟩
  obtain ⟨s1, r', e1, e2, e3, e4, e5⟩ := copySelf_spec hs0 deep (hok r List.mem_cons_self) hr
  have hl : LinkedSo deep [r'] := by
    intro b hb hc hd
    obtain rfl := List.mem_singleton.1 hb
    have hbp : b.path = [] := e3.path.trans hr
    rcases hd with hd | hd
    · have hrc : r.cells.isSome := by
        rcases e3.cells with ⟨-, h2⟩ | ⟨c, c', h1, -⟩
        · rw [h2] at hc; cases hc
        · rw [h1]; rfl
      obtain ⟨s, k, h1, h2⟩ := hlink r List.mem_cons_self hrc
      have hs : s = r := by
        have h3 : s.path = [] := List.suffix_nil.1 (hr ▸ h1.above)
        rcases List.mem_cons.1 h1.mem with h | h
        · exact h
        · exact absurd h3 (hrest s h)
      subst hs
      obtain ⟨k', g1, g2⟩ := e5 hd k hrc h1.pts h2
      refine ⟨k', ?_, g2⟩
      exact sourceRef_of_closest (s := b) (by simp) ⟨by simp, g1, List.suffix_refl _, fun _ _ _ hs => hs.length_le⟩
    · exact absurd hbp hd
  obtain ⟨s', m', f1, f2, f3, f4⟩ := copyChildren_spec deep rest s1 [r] [r'] 0 e2 ht hok hlink
    (fun b hb => hids b (List.mem_cons_of_mem _ hb) (hrest b hb)) (List.Forall₂.cons e3 List.Forall₂.nil) (by simp) hl
  have hpaths : m'.map HBlock.path = (r :: rest).map HBlock.path := copied_paths f3
  have ht' : HTree m' := by
    constructor
    · cases f3 with
      | @cons a a' l l' h1 h2 => exact ⟨a', l', rfl, h1.path.trans hr⟩
    · have h := ht.order
      have h2 : ((r :: rest).map HBlock.path).Pairwise fun a b => ¬ b <:+ a := List.pairwise_map.2 h
      rw [← hpaths] at h2
      exact List.pairwise_map.1 h2
  refine ⟨s'.st, m', ?_, ?_, ht', f3, ?_⟩
  · unfold copyTree
    rw [List.find?_cons_of_pos (by simpa using hr), Option.bind_some, e1, Option.bind_some]
    rw [List.filter_cons_of_neg (by simpa using hr), List.filter_eq_self.2 (fun b hb => by simpa using hrest b hb), f1]
    rfl
  · rw [List.prefix_iff_eq_take]
    apply List.ext_getElem?
    intro k
    rw [List.getElem?_take]
    split
    · exact (f2.old k ‹_›).symm
    · rw [List.getElem?_eq_none_iff]; omega
  · intro b hb hc hd
    obtain ⟨k, h1, h2⟩ := f4 b hb hc hd
    obtain ⟨s, hs⟩ := closest_of_sourceRef ht'.nodup h1
    exact ⟨s, k, hs, h2⟩

/-- **C81** copies are independent: new coordinates of points of a copy do not change the original, new coordinates of points of the
original do not change the copy. -/
theorem C81_independent {st st' : List (PData P D)} {m m' : List (HBlock D)} (hp : st <+: st')
    (hst : ∀ b ∈ m, ∀ k, b.pts = some k → k < st.length) (hc : List.Forall₂ (Copied st st') m m') :
    (∀ k x, st.length ≤ k → deref (storeX st' k x) m = deref st m) ∧
      ∀ k x, k < st.length → deref (storeX st' k x) m' = deref st' m' := by
  have hget : ∀ (k j : Nat) (x : List P), k ≠ j → (storeX st' k x)[j]? = st'[j]? := by
    intro k j x hkj
    unfold storeX
    rw [List.getElem?_modify]
    simp [hkj]
  constructor
  · intro k x hk
    refine List.map_congr_left fun b hb => ?_
    cases hbp : b.pts with
    | none => rfl
    | some j =>
      have hj := hst b hb j hbp
      rw [Option.bind_some, Option.bind_some, hget k j x (by omega)]
      congr 1
      obtain ⟨t, rfl⟩ := hp
      exact List.getElem?_append_left hj
  · intro k x hk
    refine List.map_congr_left fun b' hb' => ?_
    cases hbp : b'.pts with
    | none => rfl
    | some j =>
      have hj : st.length ≤ j := by
        induction hc with
        | nil => cases hb'
        | @cons a a' l l' h1 h2 ih =>
          rcases List.mem_cons.1 hb' with rfl | hb'
          · rcases h1.pts with ⟨-, e⟩ | ⟨_, k', -, e, h3, -⟩
            · rw [e] at hbp; cases hbp
            · rw [e] at hbp
              obtain rfl := Option.some.inj hbp
              exact h3
          · exact ih (fun b hb => hst b (List.mem_cons_of_mem _ hb)) hb'
      rw [Option.bind_some, Option.bind_some, hget k j x (by omega)]

theorem suffix_relPath {p a b : List Nat} (ha : p <:+ a) (hb : p <:+ b) : relPath p b <:+ relPath p a ↔ b <:+ a := by
  constructor
  · rintro ⟨t, ht⟩
    refine ⟨t, ?_⟩
    rw [← relPath_append hb, ← List.append_assoc, ht, relPath_append ha]
  · rintro ⟨t, rfl⟩
    refine ⟨t, ?_⟩
    have h1 := relPath_append hb
    have h2 : relPath p (t ++ b) ++ p = (t ++ relPath p b) ++ p := by rw [relPath_append ha, List.append_assoc, h1]
    exact (List.append_cancel_right h2).symm

/-- A block with points, together with the blocks beneath it, is a mesh like the whole one. -/
theorem C81_block {m : List (HBlock D)} (ht : HTree m) (hlink : Linked m) {p : List Nat} {b : HBlock D} (hb : b ∈ m)
    (hbp : b.path = p) (hpts : b.pts.isSome) : HTree (subBlocks m p) ∧ Linked (subBlocks m p) := by
  have hbf : b ∈ m.filter fun b => decide (p <:+ b.path) := by
    rw [List.mem_filter]
    exact ⟨hb, by simp [hbp]⟩
  constructor
  · constructor
    · have hord := ht.order.sublist (List.filter_sublist (p := fun b : HBlock D => decide (p <:+ b.path)))
      unfold subBlocks
      cases hf : m.filter fun b => decide (p <:+ b.path) with
      | nil => rw [hf] at hbf; cases hbf
      | cons f l =>
        refine ⟨_, _, List.map_cons, ?_⟩
        rw [hf] at hbf hord
        have hfp : p <:+ f.path := by
          have : f ∈ m.filter fun b => decide (p <:+ b.path) := by rw [hf]; simp
          simpa using (List.mem_filter.1 this).2
        rcases List.mem_cons.1 hbf with rfl | hbl
        · show relPath p b.path = []
          rw [hbp]
          simp [relPath]
        · exact absurd (hbp ▸ hfp) ((List.pairwise_cons.1 hord).1 b hbl)
    · unfold subBlocks
      rw [List.pairwise_map]
      refine (List.Pairwise.imp_of_mem ?_ (ht.order.sublist (List.filter_sublist (p := fun b : HBlock D => decide (p <:+ b.path)))))
      intro a c ha hc h
      have ha' : p <:+ a.path := by simpa using (List.mem_filter.1 ha).2
      have hc' : p <:+ c.path := by simpa using (List.mem_filter.1 hc).2
      exact fun h2 => h ((suffix_relPath ha' hc').1 h2)
  · intro a' ha' hc
    obtain ⟨a, ha, rfl⟩ := List.mem_map.1 ha'
    obtain ⟨ham, hap⟩ := List.mem_filter.1 ha
    have hap : p <:+ a.path := by simpa using hap
    obtain ⟨s, k, h1, h2⟩ := hlink a ham hc
    have hsp : p <:+ s.path := by
      have h3 := h1.closest b hb hpts (by rw [hbp]; exact hap)
      rw [hbp] at h3
      exact List.suffix_of_suffix_length_le hap h1.above h3
    refine ⟨{ s with path := relPath p s.path }, k, ⟨?_, h1.pts, (suffix_relPath hap hsp).2 h1.above, ?_⟩, h2⟩
    · exact List.mem_map.2 ⟨s, List.mem_filter.2 ⟨h1.mem, by simpa using hsp⟩, rfl⟩
    · intro c' hc' hp' hsuf
      obtain ⟨c, hcm, rfl⟩ := List.mem_map.1 hc'
      obtain ⟨hcm, hcp⟩ := List.mem_filter.1 hcm
      have hcp : p <:+ c.path := by simpa using hcp
      have h3 := h1.closest c hcm hp' ((suffix_relPath hap hcp).1 hsuf)
      simp only [relPath, List.length_take]
      omega

end

/-- A mesh with points and cells at the root and a block of cells beneath it. -/
def copyDemo : List (HBlock ℚ) :=
  [⟨[], some 0, some ⟨[[0, 1, 2]], [0], fun _ => none⟩, .points 0⟩, ⟨[0], none, some ⟨[[1, 2]], [1], fun _ => none⟩, .points 0⟩,
   ⟨[1], some 1, some ⟨[[0, 1]], [2], fun _ => none⟩, .points 1⟩]

theorem copyDemo_tree : HTree copyDemo := ⟨⟨_, _, rfl, rfl⟩, by unfold copyDemo; decide⟩

theorem copyDemo_linked : Linked copyDemo := by
  intro b hb hc
  have h : ∃ k, sourceRef copyDemo b.path = some k ∧ b.ref = .points k := by
    simp only [copyDemo, List.mem_cons, List.not_mem_nil, or_false] at hb
    rcases hb with rfl | rfl | rfl
    · exact ⟨0, by decide, rfl⟩
    · exact ⟨0, by decide, rfl⟩
    · exact ⟨1, by decide, rfl⟩
  obtain ⟨k, h1, h2⟩ := h
  obtain ⟨s, hs⟩ := closest_of_sourceRef copyDemo_tree.nodup h1
  exact ⟨s, k, hs, h2⟩

/-- A concrete case: what the copies of the demo mesh look like. -/
example : ((copyTree true demoStore copyDemo).map fun r => r.2.map fun b => (b.path, b.pts, b.ref)) =
      some [([], some 2, .points 2), ([0], none, .points 2), ([1], some 3, .points 3)] ∧
    ((copyTree false demoStore copyDemo).map fun r => r.2.map fun b => (b.path, b.pts, b.ref)) =
      some [([], some 2, .points 3), ([0], none, .points 2), ([1], some 5, .points 5)] := by decide +kernel

/-- **C81** (blocks): under the same conditions for the block and those beneath it, `copy` and `deepcopy` of a block with points give a mesh of exactly
these blocks, seen from the block. -/
theorem C81_copy_block_partial {P D : Type} {st : List (PData P D)} {m : List (HBlock D)} (ht : HTree m) (deep : Bool) {p : List Nat} {b : HBlock D} (hb : b ∈ m)
    (hbp : b.path = p) (hpts : b.pts.isSome) (hst : ∀ b ∈ m, ∀ k, b.pts = some k → k < st.length) (hlink : Linked m)
    (hids : ∀ b ∈ m, p <:+ b.path → b.path ≠ p → ∀ k c, b.cells = some c → b.pts = some k → ∃ q, st[k]? = some q ∧ q.id = List.range q.x.length ∧
      ∀ n ∈ c.topo.flatten, n < q.x.length) :
    ∃ st' m', copyMesh deep st m p = some (st', m') ∧ st <+: st' ∧ HTree m' ∧
      List.Forall₂ (fun b b' => b'.path ++ p = b.path ∧ Copied st st' { b with path := b'.path } b') (m.filter fun b => p <:+ b.path) m' ∧
      (∀ b ∈ m', b.cells.isSome → (deep = true ∨ b.path ≠ []) → ∃ s k, ClosestRef m' b.path s k ∧ b.ref = .points k) := by
  obtain ⟨h1, h2⟩ := C81_block ht hlink hb hbp hpts
  have hmem : ∀ x ∈ subBlocks m p, ∃ b ∈ m, p <:+ b.path ∧ x = { b with path := relPath p b.path } := by
    intro x hx
    obtain ⟨b, hb, rfl⟩ := List.mem_map.1 hx
    obtain ⟨hb, hp⟩ := List.mem_filter.1 hb
    exact ⟨b, hb, by simpa using hp, rfl⟩
  obtain ⟨st', m', e, hp, ht', hc, hr⟩ := C81_copy_partial (st := st) h1 deep (fun x hx k hk => by
      obtain ⟨b, hb, -, rfl⟩ := hmem x hx
      exact hst b hb k hk) h2 (fun x hx hne k c hc hk => by
      obtain ⟨b, hb, hs, rfl⟩ := hmem x hx
      refine hids b hb hs (fun h => hne ?_) k c hc hk
      simp [relPath, h])
  refine ⟨st', m', e, hp, ht', ?_, hr⟩
  rw [subBlocks, List.forall₂_map_left_iff] at hc
  have hs : ∀ b ∈ m.filter fun b => decide (p <:+ b.path), p <:+ b.path := fun b hb => by simpa using (List.mem_filter.1 hb).2
  revert hc hs
  generalize m.filter (fun b => decide (p <:+ b.path)) = bs
  clear e ht' hr
  intro hc hs
  induction hc with
  | nil => exact .nil
  | cons h _ ih =>
    refine .cons ⟨?_, ?_⟩ (ih fun b hb => hs b (List.mem_cons_of_mem _ hb))
    · rw [h.path]; exact relPath_append (hs _ List.mem_cons_self)
    · rw [h.path]; exact h

/-- A case: the block with its own points. -/
example : ∃ st' m', copyMesh true demoStore copyDemo [1] = some (st', m') ∧
    (m'.map fun b => (b.path, b.pts, b.ref, b.cells.map CData.topo)) = [([], some 2, .points 2, some [[0, 1]])] ∧
    ∃ b ∈ copyDemo, b.path = [1] ∧ b.pts.isSome := ⟨_, _, rfl, by decide +kernel, by decide +kernel⟩

/-- **C81** fails for shallow copies: the cells of the root of a copy refer to points that are not those of the copy. If the copy is
moved, these cells stay where they were. -/
theorem C81_shallow_false : ∃ (st' : List (PData (V3 ℚ) ℚ)) (m' : List (HBlock ℚ)) (b : HBlock ℚ) (k : Nat),
    copyTree false demoStore copyDemo = some (st', m') ∧ b ∈ m' ∧ b.cells.isSome ∧ b.path = [] ∧ sourceRef m' b.path = some k ∧
    b.ref ≠ .points k ∧ ∀ x, sourceCoords (storeX st' k x) m' b = sourceCoords st' m' b := by
  refine ⟨_, _, _, 2, rfl, List.mem_cons_self, rfl, rfl, rfl, by simp [demoStore], fun x => ?_⟩
  rfl

/-- **C81** fails for blocks beneath the root that have points and cells: the constructor of the block in the copy takes the ids of the
points for the numbers that are used in the cells. -/
theorem C81_rewired_false : ∃ (st : List (PData (V3 ℚ) ℚ)) (m : List (HBlock ℚ)), HTree m ∧ Linked m ∧
    (∃ st' m', copyTree true st m = some (st', m') ∧ (m.map fun b => b.cells.map CData.topo) = [none, some [[0, 1, 1]]] ∧
      (m'.map fun b => b.cells.map CData.topo) = [none, some [[1, 0, 0]]]) ∧
    copyTree true ([⟨[⟨0, 0, 0⟩, ⟨1, 0, 0⟩], [5, 6], fun _ => none⟩] : List (PData (V3 ℚ) ℚ)) m = none := by
  refine ⟨[⟨[⟨0, 0, 0⟩, ⟨1, 0, 0⟩], [1, 0], fun _ => none⟩],
    [⟨[], none, none, .nothing⟩, ⟨[0], some 0, some ⟨[[0, 1, 1]], [0], fun _ => none⟩, .points 0⟩], ⟨⟨_, _, rfl, rfl⟩, by decide⟩, ?_,
    ⟨_, _, rfl, rfl, by decide +kernel⟩, by decide +kernel⟩
  intro b hb hc
  simp only [List.mem_cons, List.not_mem_nil, or_false] at hb
  rcases hb with rfl | rfl
  · cases hc
  · exact ⟨_, 0, ⟨by simp, rfl, List.suffix_refl _, fun _ _ _ h => h.length_le⟩, rfl⟩

theorem copyChildren_ids (deep : Bool) (bs : List (HBlock D)) (s : CopyState P D) (acc : List (HBlock D)) (next : Nat)
    (r : CopyState P D × List (HBlock D)) (h : copyChildren deep s acc next bs = some r) :
    ∃ new, r.2 = acc ++ new ∧ new.map HBlock.path = bs.map HBlock.path ∧
      (new.flatMap fun b => (b.cells.map CData.id).getD []) =
        List.range' next (bs.map fun b => (b.cells.map fun c => c.topo.length).getD 0).sum := by
  induction bs generalizing s acc next with
  | nil =>
    obtain rfl := Option.some.inj h
    exact ⟨[], by simp, rfl, rfl⟩
  | cons b bs ih =>
    rw [copyChildren, Option.bind_eq_some_iff] at h
    obtain ⟨t, ht, h⟩ := h
    obtain ⟨new, h1, h2, h3⟩ := ih _ _ _ h
    refine ⟨t.2 :: new, by rw [h1]; simp, ?_, ?_⟩
    all_goals
      unfold copyChild at ht
      rw [Option.bind_eq_some_iff] at ht
      obtain ⟨u, -, ht⟩ := ht
      rw [Option.bind_eq_some_iff] at ht
      obtain ⟨v, -, ht⟩ := ht
      cases hc : b.cells with
      | none =>
        simp only [hc, Option.some.injEq] at ht
        subst ht
        first
        | rw [List.map_cons, h2, List.map_cons]
        | simpa [HBlock.ncells, hc] using h3
      | some c =>
        simp only [hc] at ht
        rw [Option.bind_eq_some_iff] at ht
        obtain ⟨topo, -, ht⟩ := ht
        rw [Option.map_eq_some_iff] at ht
        obtain ⟨k, -, rfl⟩ := ht
        first
        | rw [List.map_cons, h2, List.map_cons]
        | (rw [List.flatMap_cons, h3]
           simp [HBlock.ncells, hc, List.range'_append_1])

/-- **C81** (ids): the cells of the blocks beneath the root of a copy are numbered from 0, in the order of the blocks. -/
theorem C81_ids {st st' : List (PData P D)} {m m' : List (HBlock D)} {deep : Bool} (h : copyTree deep st m = some (st', m')) :
    ∃ r new, m' = r :: new ∧ r.path = [] ∧ (new.flatMap fun b => (b.cells.map CData.id).getD []) =
      List.range ((m.filter fun b => b.path ≠ []).map fun b => (b.cells.map fun c => c.topo.length).getD 0).sum := by
  rw [copyTree, Option.bind_eq_some_iff] at h
  obtain ⟨b, -, h⟩ := h
  rw [Option.bind_eq_some_iff] at h
  obtain ⟨r, hr, h⟩ := h
  rw [Option.map_eq_some_iff] at h
  obtain ⟨t, ht, he⟩ := h
  obtain ⟨new, h1, -, h3⟩ := copyChildren_ids deep _ _ _ _ _ ht
  refine ⟨r.2, new, ?_, ?_, ?_⟩
  · rw [← (Prod.mk.inj he).2, h1]
    rfl
  · unfold copySelf at hr
    rw [Option.bind_eq_some_iff] at hr
    obtain ⟨u, -, hr⟩ := hr
    rw [Option.map_eq_some_iff] at hr
    obtain ⟨v, -, rfl⟩ := hr
    rfl
  · rw [h3, List.range_eq_range']

/-- **C81** the ids of the cells of a copy are not unique: the cells of the root keep theirs, those beneath are numbered from 0. -/
theorem C81_ids_false : ∃ (st' : List (PData (V3 ℚ) ℚ)) (m' : List (HBlock ℚ)), copyTree true demoStore copyDemo = some (st', m') ∧
    ((copyDemo.flatMap fun b => (b.cells.map CData.id).getD [])).Nodup ∧
    ¬ ((m'.flatMap fun b => (b.cells.map CData.id).getD [])).Nodup := by
  refine ⟨_, _, rfl, by decide, by decide +kernel⟩

/-- **C81** a block that gets its points from a block above cannot be copied if there are cells beneath it. -/
theorem C81_above_false : ∃ (m : List (HBlock ℚ)) (p : List Nat), HTree m ∧ Linked m ∧ (∃ b ∈ m, b.path = p) ∧
    ∀ deep, copyMesh deep demoStore m p = none := by
  refine ⟨[⟨[], some 0, none, .nothing⟩, ⟨[0], none, none, .nothing⟩, ⟨[0, 0], none, some ⟨[[0, 1]], [0], fun _ => none⟩, .points 0⟩],
    [0], ⟨⟨_, _, rfl, rfl⟩, by decide⟩, ?_, ⟨_, List.mem_cons_of_mem _ List.mem_cons_self, rfl⟩, by decide +kernel⟩
  intro b hb hc
  simp only [List.mem_cons, List.not_mem_nil, or_false] at hb
  rcases hb with rfl | rfl | rfl
  · cases hc
  · cases hc
  · refine ⟨_, 0, ⟨List.mem_cons_self, rfl, List.nil_suffix, ?_⟩, rfl⟩
    intro b hb hp _
    simp only [List.mem_cons, List.not_mem_nil, or_false] at hb
    rcases hb with rfl | rfl | rfl
    · exact le_refl _
    · cases hp
    · cases hp

/-- **C81** cells that refer to a mesh instead of points: the shallow copy of the block with the cells never ends (the copy of the
cells copies the mesh), the deep copy keeps the kind of reference and the topology. -/
theorem C81_mesh_false {P D : Type} {st : List (PData P D)} {m : List (HBlock D)} {b : HBlock D} {c : CData D}
    (hb : m.find? (fun b => b.path = []) = some b) (hc : b.cells = some c) (hr : b.ref = .mesh) :
    copyTree false st m = none ∧ (m = [b] → (∀ k, b.pts = some k → k < st.length) →
      ∃ st' b', copyTree true st m = some (st', [b']) ∧ b'.ref = .mesh ∧ b'.cells = some c ∧ b'.pts.isSome = b.pts.isSome) := by
  constructor
  · simp only [copyTree, hb, Option.bind_some, copySelf]
    cases copyOptPts false ⟨st, []⟩ b.pts with
    | none => rfl
    | some r => simp [copyCellRef, hc, hr, copyRef]
  · intro hm hk
    obtain ⟨s', o', e1, -, -, e2⟩ := copyOptPts_spec (st := st) (s := ⟨st, []⟩) ⟨fun _ _ => rfl, le_refl _, by simp⟩ true hk
    have hp : b.path = [] := by simpa using List.find?_some hb
    refine ⟨s'.st, ⟨[], o', some c, .mesh⟩, ?_, rfl, rfl, ?_⟩
    · simp only [copyTree, hb, Option.bind_some, copySelf, e1]
      simp [copyCellRef, hc, hr, copyRef, hm, hp, copyChildren]
    · rcases e2 with ⟨h1, h2⟩ | ⟨k, k', h1, h2, -⟩
      · simp [h1, h2]
      · simp [h1, h2]

/-- Such cells. -/
example : ∃ b : HBlock ℚ, [b].find? (fun b => b.path = []) = some b ∧ b.ref = .mesh ∧ b.cells.isSome :=
  ⟨⟨[], some 0, some ⟨[[0, 1]], [0], fun _ => none⟩, .mesh⟩, by rfl, rfl, rfl⟩

/-- **C81** the points of a copy are seen at the same places if the frame has its origin at the origin of space. -/
theorem C81_frame_partial {K : Type} [Field K] {F : CFrame K} (h : F.origo = 0) : copyFrame F = F := by
  cases F
  simp only at h
  subst h
  rfl

/-- **C81** fails for frames with another origin: the frame of a copy has no origin, all points are seen somewhere else. -/
theorem C81_frame_false {K : Type} [Field K] {F : CFrame K} (h : F.origo ≠ 0) (x : V3 K) :
    pcShow (copyFrame F) none x ≠ pcShow F none x := by
  intro he
  have h1 : F.vecAmb x + (0 : V3 K) = F.vecAmb x + F.origo := he
  have hx := congrArg V3.x h1
  have hy := congrArg V3.y h1
  have hz := congrArg V3.z h1
  simp only [V3.add_x, V3.add_y, V3.add_z, add_right_inj] at hx hy hz
  exact h (V3.ext hx.symm hy.symm hz.symm)

end PM
