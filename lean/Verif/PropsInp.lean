import Verif.Inp
import Mathlib.Algebra.Order.Field.Rat
import Mathlib.Tactic.LinearCombination

/-!
# Triangulated surfaces from tetrahedron files (C57)
-/

namespace PM

open V3

/-- The sides of a triangle, in its direction. -/
def Tri3.sides (t : Tri3) : List (Int × Int) := [(t.1, t.2.1), (t.2.1, t.2.2), (t.2.2, t.1)]

/-- A closed oriented surface: every side is passed once in its direction and once against it. -/
def ClosedOriented (ts : List Tri3) : Prop :=
  ∀ e ∈ ts.flatMap Tri3.sides, (ts.flatMap Tri3.sides).count e = 1 ∧ (ts.flatMap Tri3.sides).count (e.2, e.1) = 1

/-- The four triangles of each tetrahedron with four different nodes form a closed oriented surface through its nodes. -/
theorem C57_closed (off : Nat) {a b c d : Int} (h : [a, b, c, d].Nodup) :
    ClosedOriented (inpTris off a b c d) ∧ (inpTris off a b c d).length = 4 ∧
    (∀ t ∈ inpTris off a b c d, [t.1, t.2.1, t.2.2].Nodup) ∧
    ∀ n, (∃ t ∈ inpTris off a b c d, n ∈ [t.1, t.2.1, t.2.2]) ↔ n ∈ [a, b, c, d].map fun k => k - 1 + (off : Int) := by
  simp only [List.nodup_cons, List.mem_cons, List.not_mem_nil, or_false, not_or, List.nodup_nil, not_false_eq_true, and_true] at h
  obtain ⟨⟨hab, hac, had⟩, ⟨hbc, hbd⟩, hcd⟩ := h
  simp only [ClosedOriented, inpTris, List.map_cons, List.map_nil]
  have e1 : a - 1 + (off : Int) ≠ b - 1 + off := by omega
  have e2 : a - 1 + (off : Int) ≠ c - 1 + off := by omega
  have e3 : a - 1 + (off : Int) ≠ d - 1 + off := by omega
  have e4 : b - 1 + (off : Int) ≠ c - 1 + off := by omega
  have e5 : b - 1 + (off : Int) ≠ d - 1 + off := by omega
  have e6 : c - 1 + (off : Int) ≠ d - 1 + off := by omega
  generalize a - 1 + (off : Int) = a at *
  generalize b - 1 + (off : Int) = b at *
  generalize c - 1 + (off : Int) = c at *
  generalize d - 1 + (off : Int) = d at *
  refine ⟨?_, rfl, ?_, ?_⟩
  · intro e he
    simp only [Tri3.sides, List.flatMap_cons, List.flatMap_nil, List.append_nil, List.cons_append, List.nil_append, List.mem_cons,
      List.not_mem_nil, or_false] at he ⊢
    rcases he with rfl | rfl | rfl | rfl | rfl | rfl | rfl | rfl | rfl | rfl | rfl | rfl <;>
      simp [List.count_cons, e1, e2, e3, e4, e5, e6, e1.symm, e2.symm, e3.symm, e4.symm, e5.symm, e6.symm]
  · intro t ht
    simp only [List.mem_cons, List.not_mem_nil, or_false] at ht
    rcases ht with rfl | rfl | rfl | rfl <;>
      simp [e1, e2, e3, e4, e5, e6, e1.symm, e2.symm, e3.symm, e4.symm, e5.symm, e6.symm]
  · intro n
    simp
    tauto

/-- Six times the signed volume under a triangle (with the origin). -/
def coneVol {K : Type} [Field K] (P : Int → V3 K) (t : Tri3) : K := V3.det3 (P t.1) (P t.2.1) (P t.2.2)

/-- The surface of a tetrahedron is oriented inwards if `(b - a, c - a, d - a)` is a right-handed triple, whatever the points:
the enclosed signed volume is minus that of the tetrahedron. -/
theorem C57_inward {K : Type} [Field K] (P : Int → V3 K) (off : Nat) (a b c d : Int) :
    ((inpTris off a b c d).map (coneVol P)).sum =
      -V3.det3 (P (b - 1 + off) - P (a - 1 + off)) (P (c - 1 + off) - P (a - 1 + off)) (P (d - 1 + off) - P (a - 1 + off)) := by
  simp only [inpTris, coneVol, List.map_cons, List.map_nil, List.sum_cons, List.sum_nil, V3.det3, V3.cross, V3.dot, V3.sub_x,
    V3.sub_y, V3.sub_z]
  ring

/-- The flip option reverses every triangle: the sides are passed in the opposite direction, the nodes are kept, the enclosed
volume changes its sign, and nothing else changes. -/
theorem C57_flip {K : Type} (lines : List (InpLine K)) :
    readInp lines true = (readInp lines false).map fun r => (r.1, r.2.map (List.map flipTri3)) := by
  unfold readInp
  cases inpRun {} lines <;> simp

theorem C57_flip_tri (t : Tri3) :
    (∀ e, e ∈ (flipTri3 t).sides ↔ (e.2, e.1) ∈ t.sides) ∧ [(flipTri3 t).1, (flipTri3 t).2.1, (flipTri3 t).2.2].Perm [t.1, t.2.1, t.2.2] ∧
    (flipTri3 t).1 = t.1 ∧ flipTri3 (flipTri3 t) = t ∧
    ∀ {K : Type} [Field K] (P : Int → V3 K), coneVol P (flipTri3 t) = -coneVol P t := by
  obtain ⟨a, b, c⟩ := t
  refine ⟨?_, ?_, rfl, rfl, ?_⟩
  · rintro ⟨u, v⟩
    simp only [flipTri3, Tri3.sides, List.mem_cons, Prod.mk.injEq, List.not_mem_nil, or_false]
    tauto
  · exact List.Perm.cons a (List.Perm.swap b c [])
  · intro K _ P
    simp only [flipTri3, coneVol, V3.det3, V3.cross, V3.dot]
    ring

/-! ## whole files -/

/-- A part: its nodes in the order of the file, and its tetrahedra by numbers `1, 2, ...` of nodes of the part. -/
structure InpPart (K : Type) where
  nodes : List (V3 K)
  tets : List (Int × Int × Int × Int)

/-- The line of a node with its label. -/
def nodeLine {K : Type} (label : Int) (p : V3 K) : InpLine K :=
  .data [(some label, none), (none, some p.x), (none, some p.y), (none, some p.z)]

/-- The line of a tetrahedron. -/
def tetLine {K : Type} (label : Int) (t : Int × Int × Int × Int) : InpLine K :=
  .data [(some label, none), (some t.1, none), (some t.2.1, none), (some t.2.2.1, none), (some t.2.2.2, none)]

/-- A part as it is written: the part, its nodes, its elements and other keywords and comments. -/
def InpPart.lines {K : Type} (p : InpPart K) : List (InpLine K) :=
  .part :: .comment :: .node :: (p.nodes.zipIdx 1).map (fun q => nodeLine q.2 q.1) ++
    .element :: (p.tets.zipIdx 1).map (fun q => tetLine q.2 q.1) ++ [.keyword, .comment]

theorem inpRun_append {K : Type} (s : InpState K) (l l' : List (InpLine K)) :
    inpRun s (l ++ l') = (inpRun s l).bind fun s' => inpRun s' l' := by
  induction l generalizing s with
  | nil => rfl
  | cons a l ih =>
    simp only [List.cons_append, inpRun]
    cases s.step a with
    | none => rfl
    | some s' => exact ih s'

theorem inpRun_nodes {K : Type} (s : InpState K) (hs : s.kind = some .node) (l : List (V3 K × Int)) :
    inpRun s (l.map fun q => nodeLine q.2 q.1) = some { s with verts := s.verts ++ l.map Prod.fst } := by
  induction l generalizing s with
  | nil => simp [inpRun]
  | cons q l ih =>
    have h1 : s.step (nodeLine q.2 q.1) = some { s with verts := s.verts ++ [q.1] } := by
      simp only [InpState.step, nodeLine, InpState.data, hs]
    simp only [List.map_cons, inpRun, h1, Option.bind_some]
    rw [ih _ (by exact hs)]
    simp

theorem inpRun_tets {K : Type} (s : InpState K) (hs : s.kind = some .tet) (pre : List (List Tri3)) (cur : List Tri3)
    (ht : s.tris = pre ++ [cur]) (l : List ((Int × Int × Int × Int) × Int)) :
    inpRun s (l.map fun q => tetLine q.2 q.1) =
      some { s with tris := pre ++ [cur ++ l.flatMap fun q => inpTris s.offset q.1.1 q.1.2.1 q.1.2.2.1 q.1.2.2.2] } := by
  induction l generalizing s cur with
  | nil => simp [inpRun, ← ht]
  | cons q l ih =>
    have h1 : s.step (tetLine q.2 q.1) =
        some { s with tris := pre ++ [cur ++ inpTris s.offset q.1.1 q.1.2.1 q.1.2.2.1 q.1.2.2.2] } := by
      simp only [InpState.step, tetLine, InpState.data, hs, appendLast, ht]
      simp
    simp only [List.map_cons, inpRun, h1, Option.bind_some]
    rw [ih _ (by exact hs) _ rfl]
    simp

/-- The triangles of a part, of nodes numbered from zero after `off` nodes. -/
def InpPart.triangles {K : Type} (p : InpPart K) (off : Nat) : List Tri3 :=
  p.tets.flatMap fun t => inpTris off t.1 t.2.1 t.2.2.1 t.2.2.2

/-- The triangles of the parts: the nodes of the earlier parts are counted. -/
def partTriangles {K : Type} : List (InpPart K) → Nat → List (List Tri3)
  | [], _ => []
  | p :: ps, off => p.triangles off :: partTriangles ps (off + p.nodes.length)

theorem inpRun_part {K : Type} (s : InpState K) (p : InpPart K) :
    ∃ s', inpRun s p.lines = some s' ∧ s'.verts = s.verts ++ p.nodes ∧ s'.tris = s.tris ++ [p.triangles s.verts.length] := by
  unfold InpPart.lines
  simp only [List.cons_append, List.append_assoc, inpRun, InpState.step, Option.bind_some]
  have hn : ∀ (s : InpState K), s.kind = some .node →
      inpRun s ((p.nodes.zipIdx 1).map fun q => nodeLine (q.2 : Int) q.1) = some { s with verts := s.verts ++ p.nodes } := by
    intro s hs
    have := inpRun_nodes s hs ((p.nodes.zipIdx 1).map fun q => (q.1, (q.2 : Int)))
    rw [List.map_map, List.map_map] at this
    have e : List.map (Prod.fst ∘ fun q : V3 K × Nat => (q.1, (q.2 : Int))) (p.nodes.zipIdx 1) = p.nodes :=
      List.zipIdx_map_fst 1 p.nodes
    rw [e] at this
    exact this
  rw [inpRun_append, hn _ rfl, Option.bind_some]
  simp only [inpRun, InpState.step, Option.bind_some]
  rw [inpRun_append]
  have htt : ∀ (s : InpState K) (pre : List (List Tri3)), s.kind = some .tet → s.tris = pre ++ [[]] →
      inpRun s ((p.tets.zipIdx 1).map fun q => tetLine (q.2 : Int) q.1) = some { s with tris := pre ++ [p.triangles s.offset] } := by
    intro s pre hs ht
    have := inpRun_tets s hs pre [] ht ((p.tets.zipIdx 1).map fun q => (q.1, (q.2 : Int)))
    rw [List.map_map] at this
    have e : ((p.tets.zipIdx 1).map fun q => (q.1, (q.2 : Int))).flatMap
        (fun q => inpTris s.offset q.1.1 q.1.2.1 q.1.2.2.1 q.1.2.2.2) = p.triangles s.offset := by
      unfold InpPart.triangles
      conv_rhs => rw [← List.zipIdx_map_fst 1 p.tets]
      rw [List.flatMap_map, List.flatMap_map]
    rw [e, List.nil_append] at this
    exact this
  rw [htt _ s.tris rfl rfl]
  simp only [Option.bind_some, inpRun, InpState.step]
  exact ⟨_, rfl, rfl, rfl⟩

/-- A file of several parts: all nodes in order, one list of triangles for each part, and the numbers of the nodes of a part
are shifted by the number of nodes of the parts before it. -/
theorem C57_parts {K : Type} (ps : List (InpPart K)) :
    readInp (ps.flatMap InpPart.lines) false = some (ps.flatMap InpPart.nodes, partTriangles ps 0) := by
  have key : ∀ (ps : List (InpPart K)) (s : InpState K), ∃ s', inpRun s (ps.flatMap InpPart.lines) = some s' ∧
      s'.verts = s.verts ++ ps.flatMap InpPart.nodes ∧ s'.tris = s.tris ++ partTriangles ps s.verts.length := by
    intro ps
    induction ps with
    | nil => intro s; exact ⟨s, rfl, by simp, by simp [partTriangles]⟩
    | cons p ps ih =>
      intro s
      obtain ⟨s1, h1, h2, h3⟩ := inpRun_part s p
      obtain ⟨s2, h4, h5, h6⟩ := ih s1
      refine ⟨s2, ?_, ?_, ?_⟩
      · rw [List.flatMap_cons, inpRun_append, h1, Option.bind_some, h4]
      · rw [h5, h2, List.flatMap_cons, List.append_assoc]
      · rw [h6, h3, h2, List.length_append, partTriangles, List.append_assoc]
        rfl
  obtain ⟨s', h1, h2, h3⟩ := key ps {}
  unfold readInp
  rw [h1]
  simp only [Option.map_some, h2, h3]
  simp

/-- The triangles of part `k` point to the nodes of part `k`: node `n` of the part (counted from 1) is found at the
shifted place among all vertices. -/
theorem C57_nodes {K : Type} (ps : List (InpPart K)) {k : Nat} {p : InpPart K} (hk : ps[k]? = some p) {n : Nat}
    (hn : n < p.nodes.length) :
    (partTriangles ps 0)[k]? = some (p.triangles ((ps.take k).map fun q => q.nodes.length).sum) ∧
    (ps.flatMap InpPart.nodes)[((n : Int) + 1 - 1 + (((ps.take k).map fun q => q.nodes.length).sum : Nat)).toNat]? = p.nodes[n]? := by
  have h1 : ∀ (ps : List (InpPart K)) (off k : Nat), ps[k]? = some p →
      (partTriangles ps off)[k]? = some (p.triangles (off + ((ps.take k).map fun q => q.nodes.length).sum)) := by
    intro ps
    induction ps with
    | nil => intro off k h; simp at h
    | cons q ps ih =>
      intro off k h
      cases k with
      | zero =>
        obtain rfl := Option.some.inj h
        simp [partTriangles]
      | succ k =>
        have := ih (off + q.nodes.length) k (by simpa using h)
        simp only [partTriangles, List.getElem?_cons_succ, this, List.take_succ_cons, List.map_cons, List.sum_cons]
        rw [Nat.add_assoc]
  have h2 : ∀ (ps : List (InpPart K)) (k : Nat), ps[k]? = some p →
      (ps.flatMap InpPart.nodes)[((ps.take k).map fun q => q.nodes.length).sum + n]? = p.nodes[n]? := by
    intro ps
    induction ps with
    | nil => intro k h; simp at h
    | cons q ps ih =>
      intro k h
      cases k with
      | zero =>
        obtain rfl := Option.some.inj h
        simp only [List.take_zero, List.map_nil, List.sum_nil, Nat.zero_add, List.flatMap_cons]
        rw [List.getElem?_append_left hn]
      | succ k =>
        have := ih k (by simpa using h)
        rw [List.take_succ_cons, List.map_cons, List.sum_cons, List.flatMap_cons, Nat.add_assoc,
          List.getElem?_append_right (by omega), Nat.add_sub_cancel_left]
        exact this
  refine ⟨by simpa using h1 ps 0 k hk, ?_⟩
  rw [← h2 ps k hk]
  congr 1
  omega

/-- The labels of nodes are ignored: nodes labelled 1, 3, 4, 5 and a tetrahedron 1, 3, 4, 5 give triangles that point
beyond the vertices. -/
theorem C57_labels_false : ∃ (lines : List (InpLine ℚ)) (verts : List (V3 ℚ)) (tris : List (List Tri3)),
    lines = [.node, nodeLine 1 ⟨0, 0, 0⟩, nodeLine 3 ⟨1, 0, 0⟩, nodeLine 4 ⟨0, 1, 0⟩, nodeLine 5 ⟨0, 0, 1⟩, .element,
      tetLine 1 (1, 3, 4, 5)] ∧
    readInp lines false = some (verts, tris) ∧ verts.length = 4 ∧ ∃ l ∈ tris, ∃ t ∈ l, t.2.1 = 4 := by
  refine ⟨_, _, _, rfl, rfl, rfl, ?_⟩
  decide

/-- A file with two parts. -/
example : readInp ([⟨[⟨0, 0, 0⟩, ⟨1, 0, 0⟩, ⟨0, 1, 0⟩, ⟨0, 0, 1⟩], [(1, 2, 3, 4)]⟩,
      ⟨[⟨2, 0, 0⟩, ⟨3, 0, 0⟩, ⟨2, 1, 0⟩, ⟨2, 0, 1⟩], [(1, 2, 3, 4)]⟩].flatMap (InpPart.lines (K := Int))) true =
    some ([⟨0, 0, 0⟩, ⟨1, 0, 0⟩, ⟨0, 1, 0⟩, ⟨0, 0, 1⟩, ⟨2, 0, 0⟩, ⟨3, 0, 0⟩, ⟨2, 1, 0⟩, ⟨2, 0, 1⟩],
      [[(0, 2, 1), (0, 1, 3), (3, 1, 2), (3, 2, 0)], [(4, 6, 5), (4, 5, 7), (7, 5, 6), (7, 6, 4)]]) := by rfl

end PM
