import Verif.Convert
import Verif.PropsTransform
import Verif.PropsElevate

/-!
# C127: the conversions of cells as they are called
-/

namespace PM

variable {β C : Type}

/-! ## Specification -/

/-- The conversions with an argument `path`. -/
inductive Conv where
  | T6_T3 | H27_H8 | Q9_Q4 | H8_TET4 | H27_TET10 | H8_Q4 | Q4_T3 | Q8_T3 | W6_TET4 | W18_W6

namespace Conv

/-- Nodes of the cells that are converted. -/
def nodes : Conv → Nat
  | T6_T3 => 6 | H27_H8 => 27 | Q9_Q4 => 9 | H8_TET4 => 8 | H27_TET10 => 27 | H8_Q4 => 8 | Q4_T3 => 4 | Q8_T3 => 8
  | W6_TET4 => 6 | W18_W6 => 18

/-- Nodes of the new cells. -/
def cols : Conv → Nat
  | T6_T3 => 3 | H27_H8 => 8 | Q9_Q4 => 4 | H8_TET4 => 4 | H27_TET10 => 10 | H8_Q4 => 4 | Q4_T3 => 3 | Q8_T3 => 3
  | W6_TET4 => 4 | W18_W6 => 6

/-- The tables of the theorems on volumes and tilings. -/
def table : Conv → List (List Nat)
  | T6_T3 => pathT6T3 | H27_H8 => pathH27H8 | Q9_Q4 => pathQ9Q4 | H8_TET4 => pathH8TET4 | H27_TET10 => pathH27TET10
  | H8_Q4 => pathH8Q4 | Q4_T3 => pathQ4T3 | Q8_T3 => pathQ8T3 | W6_TET4 => pathW6TET4 | W18_W6 => pathW18W6

/-- The tables for cells with the numbering of `grid`. -/
def gridTable : Conv → Option (List (List Nat))
  | Q9_Q4 => some pathQ9Q4Grid | Q4_T3 => some pathQ4T3Grid | _ => none

/-- Conversions that can return the corners only. -/
def hasFlag : Conv → Bool
  | T6_T3 => true | H27_H8 => true | W18_W6 => true | _ => false

/-- Conversions that check for texts. -/
def strict : Conv → Bool
  | T6_T3 => false | H27_H8 => false | Q9_Q4 => false | Q4_T3 => false | _ => true

/-- The function of the library. Where it has no argument `subdivide`, that one is among the keywords that are ignored. -/
def call (c : Conv) (zb : β) (coords : C) (topo : Topo) (nNE : Nat) (data : Option (ConvArg β)) (extra : List (Option (ConvArg β)))
    (path : ConvPath) (subdivide : Bool) : Except ConvErr (C × Topo × Option (ConvOut β)) :=
  match c with
  | T6_T3 => t6ToT3 zb coords topo nNE data extra path subdivide
  | H27_H8 => h27ToH8 zb coords topo nNE data extra path subdivide
  | Q9_Q4 => q9ToQ4 zb coords topo nNE data extra path
  | H8_TET4 => h8ToTET4 zb coords topo nNE data extra path
  | H27_TET10 => h27ToTET10 zb coords topo nNE data extra path
  | H8_Q4 => h8ToQ4 zb coords topo nNE data extra path
  | Q4_T3 => q4ToT3 zb coords topo nNE data extra path
  | Q8_T3 => q8ToT3 zb coords topo nNE data extra path
  | W6_TET4 => w6ToTET4 zb coords topo nNE data extra path
  | W18_W6 => w18ToW6 zb coords topo nNE data extra path subdivide

end Conv

/-- Cell `i * len(p) + k` of `t` has at place `j` the node (or the value) that cell `i` of `topo` has at place `p[k][j]`. -/
def Parts {α : Type} (p : List (List Nat)) (topo t : List (List α)) : Prop :=
  t.length = p.length * topo.length ∧
    ∀ (i k : Nat) (cell : List α) (row : List Nat), topo[i]? = some cell → p[k]? = some row →
      ∃ new, t[i * p.length + k]? = some new ∧ new.length = row.length ∧ ∀ j q : Nat, row[j]? = some q → q < cell.length ∧ new[j]? = cell[q]?

/-- Entry `i * n + k` of `b` is entry `i` of `a`. -/
def Spread {α : Type} (n : Nat) (a b : List α) : Prop :=
  b.length = n * a.length ∧ ∀ (i k : Nat) (x : α), a[i]? = some x → k < n → b[i * n + k]? = some x

/-- Data of cells with `nNE` nodes and what becomes of them: values at nodes stay with their nodes, values of cells are given to all
parts. -/
def Follows (p : List (List Nat)) (w nNE : Nat) : NArr β → NArr β → Prop
  | .flat a, .flat b => Spread p.length a b
  | .table a wa, .table b wb => if wa = nNE then wb = w ∧ Parts p a b else wb = wa ∧ Spread p.length a b
  | _, _ => False

/-- Length of the first axis. -/
def NArr.len : NArr β → Nat
  | .flat d => d.length
  | .table d _ => d.length

/-- All rows are as long as the shape says. -/
def NArr.Proper : NArr β → Prop
  | .flat _ => True
  | .table d w => ∀ r ∈ d, r.length = w

/-! ## Lemmas -/

theorem parts_transformed {α : Type} {topo : List (List α)} {p : List (List Nat)} {w : Nat} (h : PathOK topo p w) (z : α) :
    Parts p topo (transformed topo p z) := by
  refine ⟨length_transformed _ _ _, ?_⟩
  intro i k cell row hi hk
  have hkl : k < p.length := (List.getElem?_eq_some_iff.1 hk).1
  refine ⟨row.map fun q => cell.getD q z, ?_, by simp, ?_⟩
  · rw [transformed_row hkl, hi, hk]; rfl
  · intro j q hq
    have := h.inside _ (List.mem_of_getElem? hi) _ (List.mem_of_getElem? hk) q (List.mem_of_getElem? hq)
    refine ⟨this, ?_⟩
    simp [hq, List.getElem?_eq_getElem this]

theorem kernel_eq {topo : Topo} {p : List (List Nat)} {w : Nat} (h : PathOK topo p w) :
    transformTopology topo p w 0 = some (transformed topo p 0) := transformResult_eq h 0 fun _ => mem_transformWrites

theorem spread_npRepeat {α : Type} (a : List α) (n : Nat) : Spread n a (npRepeat a n) := by
  constructor
  · unfold npRepeat; rw [length_flatMap_block (n := n) fun _ _ => by simp]
  · intro i k x hi hk
    unfold npRepeat
    rw [getElem?_flatMap_block (fun _ _ => by simp) hk, hi]
    simp [hk]

theorem convData_ok {topo : Topo} {p : List (List Nat)} {w nNE : Nat} (zb : β) (h : PathOK topo p w)
    (ht : ∀ c ∈ topo, c.length = nNE) {a : NArr β} (ha : a.len = topo.length) (hp : a.Proper) :
    ∃ b, convData zb topo.length nNE p w a = .ok b ∧ Follows p w nNE a b := by
  cases a with
  | flat d =>
    refine ⟨.flat (npRepeat d p.length), ?_, spread_npRepeat _ _⟩
    change d.length = _ at ha
    simp only [convData]; rw [if_pos ha]; rfl
  | table d wd =>
    change d.length = _ at ha
    simp only [NArr.Proper] at hp
    by_cases hw : wd = nNE
    · have hok : PathOK d p w := by
        refine ⟨h.rect, fun c hc q hq x hx => ?_⟩
        rw [hp c hc, hw]
        obtain ⟨t, ht'⟩ : ∃ t, t ∈ topo := by
          cases topo with
          | nil => simp at ha; subst ha; simp at hc
          | cons t _ => exact ⟨t, List.mem_cons_self⟩
        rw [← ht t ht']
        exact h.inside t ht' q hq x hx
      refine ⟨.table (transformed d p zb) w, ?_, ?_⟩
      · have e : repeatCellNodalData d p w zb = some (transformed d p zb) := transformResult_eq hok zb fun _ => mem_repeatWrites
        simp only [convData]; rw [if_pos ⟨ha, hw⟩, e]; rfl
      · simp only [Follows, if_pos hw]; exact ⟨trivial, parts_transformed hok zb⟩
    · refine ⟨.table (npRepeat d p.length) wd, ?_, ?_⟩
      · simp only [convData]; rw [if_neg (fun h => hw h.2), if_pos ha]; rfl
      · simp only [Follows, if_neg hw]; exact ⟨trivial, spread_npRepeat _ _⟩

theorem convData_err {p : List (List Nat)} {nE w nNE : Nat} (zb : β) {a : NArr β} (ha : a.len ≠ nE) :
    convData zb nE nNE p w a = .error .notImplemented := by
  cases a with
  | flat d =>
    change d.length ≠ _ at ha
    simp only [convData]; rw [if_neg ha]
  | table d wd =>
    change d.length ≠ _ at ha
    simp only [convData]; rw [if_neg (fun h => ha h.1), if_neg ha]

/-- The path of a call. -/
def Conv.pathOf : Conv → ConvPath → Bool → Except ConvErr ConvPath
  | T6_T3, p, s => pathOfT6T3 p s | H27_H8, p, s => pathOfH27H8 p s | Q9_Q4, p, _ => pathOfQ9Q4 p | H8_TET4, p, _ => pathOfH8TET4 p
  | H27_TET10, p, _ => pathOfH27TET10 p | H8_Q4, p, _ => pathOfH8Q4 p | Q4_T3, p, _ => pathOfQ4T3 p | Q8_T3, p, _ => pathOfQ8T3 p
  | W6_TET4, p, _ => pathOfW6TET4 p | W18_W6, p, s => pathOfW18W6 p s

theorem Conv.call_eq (c : Conv) (zb : β) (coords : C) (topo : Topo) (nNE : Nat) (data : Option (ConvArg β))
    (extra : List (Option (ConvArg β))) (path : ConvPath) (s : Bool) :
    c.call zb coords topo nNE data extra path s = (c.pathOf path s).bind fun p => convFinish zb coords topo nNE p data extra := by
  cases c <;> rfl

theorem Conv.pathOf_arr (c : Conv) (rows : List (List Nat)) (w : Nat) (s : Bool) :
    c.pathOf (.arr rows w) s = if w = c.cols then .ok (.arr rows w) else .error .assertion := by cases c <;> rfl

theorem Conv.pathOf_missing (c : Conv) : c.pathOf .missing true = .ok (.arr c.table c.cols) := by cases c <;> rfl

theorem Conv.pathOf_flag (c : Conv) (h : c.hasFlag = true) : c.pathOf .missing false = .ok (.arr [List.range c.cols] c.cols) := by
  cases c <;> first | rfl | cases h

theorem Conv.pathOf_noflag (c : Conv) (h : c.hasFlag = false) (p : ConvPath) (s s' : Bool) : c.pathOf p s = c.pathOf p s' := by
  cases c <;> first | rfl | cases h

theorem Conv.table_ok (c : Conv) {topo : Topo} (h : ∀ x ∈ topo, x.length = c.nodes) : PathOK topo c.table c.cols := by
  have h1 : ∀ p ∈ c.table, p.length = c.cols := by cases c <;> decide
  have h2 : ∀ p ∈ c.table, ∀ q ∈ p, q < c.nodes := by cases c <;> decide
  exact ⟨h1, fun x hx p hp q hq => by rw [h x hx]; exact h2 p hp q hq⟩

theorem finish_none (zb : β) (coords : C) {topo : Topo} {p : List (List Nat)} {w : Nat} (nNE : Nat) (h : PathOK topo p w) :
    convFinish zb coords topo nNE (.arr p w) (none : Option (ConvArg β)) [] = .ok (coords, transformed topo p 0, none) := by
  simp only [convFinish, transformArgs, transformBody, List.head?_nil, Option.join_none, kernel_eq h]; rfl

theorem mapM_except {A B E : Type} {f : A → Except E B} {R : A → B → Prop} :
    ∀ {l : List A}, (∀ a ∈ l, ∃ b, f a = .ok b ∧ R a b) → ∃ r, l.mapM f = .ok r ∧ List.Forall₂ R l r
  | [], _ => ⟨[], rfl, .nil⟩
  | a :: l, h => by
    obtain ⟨b, hb, hr⟩ := h a List.mem_cons_self
    obtain ⟨r, hr', hf⟩ := mapM_except fun x hx => h x (List.mem_cons_of_mem _ hx)
    refine ⟨b :: r, ?_, .cons hr hf⟩
    rw [List.mapM_cons, hb]
    change (do let r' ← l.mapM f; pure (b :: r')) = _
    rw [hr']; rfl

theorem mapM_except_err {A B E : Type} {f : A → Except E B} {e : E} :
    ∀ {l : List A}, (∀ a ∈ l, (∃ b, f a = .ok b) ∨ f a = .error e) → (∃ a ∈ l, f a = .error e) → l.mapM f = .error e
  | [], _, h => by simp at h
  | a :: l, h, h' => by
    rw [List.mapM_cons]
    rcases h a List.mem_cons_self with ⟨b, hb⟩ | hb
    · rw [hb]
      change (do let r' ← l.mapM f; pure (b :: r')) = _
      obtain ⟨x, hx, hxe⟩ := h'
      rcases List.mem_cons.1 hx with rfl | hx
      · rw [hb] at hxe; cases hxe
      · rw [mapM_except_err (fun x hx => h x (List.mem_cons_of_mem _ hx)) ⟨x, hx, hxe⟩]; rfl
    · rw [hb]; rfl

theorem flatMap_pure_eq_map' {A B : Type} (f : A → B) : ∀ l : List A, l.flatMap (fun x => [f x]) = l.map f
  | [] => rfl
  | a :: l => by rw [List.flatMap_cons, flatMap_pure_eq_map' f l]; rfl

/-! ## The claim -/

/-- **C127** Called with a mesh only, every conversion hands on the coordinates and cuts every cell along the table of its kind. -/
theorem C127_default (c : Conv) (zb : β) (coords : C) (topo : Topo) (h : ∀ x ∈ topo, x.length = c.nodes) :
    ∃ t, c.call zb coords topo c.nodes none [] .missing true = .ok (coords, t, none) ∧ Parts c.table topo t := by
  refine ⟨_, ?_, parts_transformed (c.table_ok h) 0⟩
  rw [Conv.call_eq, Conv.pathOf_missing]
  exact finish_none zb coords _ (c.table_ok h)

/-- **C127** `subdivide=False`: the corners of the cells. -/
theorem C127_corners (c : Conv) (hc : c.hasFlag = true) (zb : β) (coords : C) (topo : Topo) (h : ∀ x ∈ topo, x.length = c.nodes) :
    c.call zb coords topo c.nodes none [] .missing false = .ok (coords, topo.map (List.take c.cols), none) := by
  have hle : c.cols ≤ c.nodes := by cases c <;> decide
  have hok : PathOK topo [List.range c.cols] c.cols := by
    refine ⟨by simp, fun x hx p hp q hq => ?_⟩
    rw [h x hx]
    rw [List.mem_singleton] at hp; subst hp
    have := List.mem_range.1 hq
    omega
  rw [Conv.call_eq, Conv.pathOf_flag c hc]
  refine (finish_none zb coords _ hok).trans ?_
  congr 3
  unfold transformed
  rw [List.flatMap_def, ← List.flatMap_def]
  have : ∀ x ∈ topo, (List.map (fun p => List.map (fun q => x.getD q 0) p) [List.range c.cols]) = [x.take c.cols] := by
    intro x hx
    rw [List.map_singleton]
    congr 1
    apply List.ext_getElem?
    intro j
    by_cases hj : j < c.cols
    · have : j < x.length := by rw [h x hx]; omega
      simp [hj, List.getElem?_eq_getElem this]
    · rw [List.getElem?_eq_none (by simp; omega), List.getElem?_eq_none (by simp; omega)]
  rw [List.flatMap_congr this]
  exact flatMap_pure_eq_map' _ _

/-- **C127** An array with as many columns as the new cells have nodes is used as it is. -/
theorem C127_path (c : Conv) (zb : β) (coords : C) (topo : Topo) (nNE : Nat) (rows : List (List Nat)) (s : Bool)
    (h : PathOK topo rows c.cols) :
    ∃ t, c.call zb coords topo nNE none [] (.arr rows c.cols) s = .ok (coords, t, none) ∧ Parts rows topo t := by
  refine ⟨_, ?_, parts_transformed h 0⟩
  rw [Conv.call_eq, Conv.pathOf_arr, if_pos rfl]
  exact finish_none zb coords _ h

/-- **C127** An array that names a node which one of the cells does not have: compiled code reads outside of the array. Together with `C127_path` this says
which arrays can be used. -/
theorem C127_path_overrun (c : Conv) (zb : β) (coords : C) (topo : Topo) (nNE : Nat) (rows : List (List Nat)) (s : Bool)
    (hw : ∀ r ∈ rows, r.length = c.cols) {cell row : List Nat} {q : Nat} (hc : cell ∈ topo) (hr : row ∈ rows) (hq : q ∈ row) (h : cell.length ≤ q) :
    c.call zb coords topo nNE none [] (.arr rows c.cols) s = .error .overrun := by
  have e : transformTopology topo rows c.cols 0 = none := by
    obtain ⟨i, hi, rfl⟩ := List.getElem_of_mem hc
    obtain ⟨k, hk, rfl⟩ := List.getElem_of_mem hr
    obtain ⟨j, hj, rfl⟩ := List.getElem_of_mem hq
    have hj' : j < c.cols := by rw [← hw _ hr]; exact hj
    have hp : pick? topo rows i k j = none := by
      simp only [pick?, nodeAt, List.getElem?_eq_getElem hk, Option.bind_eq_bind, Option.bind_some, List.getElem?_eq_getElem hj, List.getElem?_eq_getElem hi,
        List.getElem?_eq_none h]
    have hcons : Consistent (transformWrites topo rows c.cols) := by
      intro x hx y hy hxy
      obtain ⟨i1, j1, k1, h1, h2, h3, rfl⟩ := mem_transformWrites.1 hx
      obtain ⟨i2, j2, k2, h4, h5, h6, rfl⟩ := mem_transformWrites.1 hy
      simp only [Prod.mk.injEq] at hxy
      obtain ⟨e1, rfl⟩ := hxy
      have hi : i1 = i2 := by
        have a1 : (i1 * rows.length + k1) / rows.length = i1 := by
          rw [Nat.mul_comm, Nat.mul_add_div (by omega), Nat.div_eq_of_lt h3, Nat.add_zero]
        have a2 : (i2 * rows.length + k2) / rows.length = i2 := by
          rw [Nat.mul_comm, Nat.mul_add_div (by omega), Nat.div_eq_of_lt h6, Nat.add_zero]
        rw [← a1, ← a2, e1]
      subst hi
      have : k1 = k2 := by omega
      rw [this]
    have hrun := runW_of_mem hcons (m := fun _ => some 0) (mem_transformWrites.2 ⟨i, j, k, hi, hj', hk, rfl⟩)
    simp only [hp] at hrun
    cases ht : transformTopology topo rows c.cols 0 with
    | none => rfl
    | some t =>
      have hlt : i * rows.length + k < rows.length * topo.length := by
        calc i * rows.length + k < i * rows.length + rows.length := by omega
          _ = rows.length * (i + 1) := by ring
          _ ≤ rows.length * topo.length := Nat.mul_le_mul_left _ hi
      obtain ⟨r, hr, -⟩ := mapM_get ht (toRows_getElem? _ hlt)
      obtain ⟨b, hb, -⟩ := mapM_get (a := none) (i := j) hr (by simp [List.getElem?_range hj', hrun])
      cases hb
  rw [Conv.call_eq, Conv.pathOf_arr, if_pos rfl]
  simp only [Except.bind, convFinish, transformArgs, transformBody, List.head?_nil, Option.join_none, e]
  rfl

/-- A case: two quadrilaterals, and a path that asks for a fifth node. -/
example : Conv.Q4_T3.call 0 () [[0, 1, 2, 3], [1, 4, 5, 2]] 4 none [] (.arr [[0, 1, 2], [0, 2, 4]] 3) true = .error .overrun :=
  C127_path_overrun .Q4_T3 (0 : Nat) () [[0, 1, 2, 3], [1, 4, 5, 2]] 4 [[0, 1, 2], [0, 2, 4]] true (by decide) (cell := [0, 1, 2, 3]) (row := [0, 2, 4]) (q := 4)
    (by simp) (by simp) (by simp) (by simp)

/-- **C127** `path="grid"` of the two functions that know it. -/
theorem C127_grid (c : Conv) (g : List (List Nat)) (hg : c.gridTable = some g) (zb : β) (coords : C) (topo : Topo)
    (h : ∀ x ∈ topo, x.length = c.nodes) (s : Bool) :
    ∃ t, c.call zb coords topo c.nodes none [] (.name "grid") s = .ok (coords, t, none) ∧ Parts g topo t := by
  have h1 : ∀ p ∈ g, p.length = c.cols := by cases c <;> cases hg <;> decide
  have h2 : ∀ p ∈ g, ∀ q ∈ p, q < c.nodes := by cases c <;> cases hg <;> decide
  have hok : PathOK topo g c.cols := ⟨h1, fun x hx p hp q hq => by rw [h x hx]; exact h2 p hp q hq⟩
  refine ⟨_, ?_, parts_transformed hok 0⟩
  have e : c.pathOf (.name "grid") s = .ok (.arr g c.cols) := by cases c <;> cases hg <;> rfl
  rw [Conv.call_eq, e]
  exact finish_none zb coords _ hok

/-- **C127** All other paths are exceptions, whatever the other arguments are: arrays with another number of columns or three axes, arrays
with one axis, lists, and texts. -/
theorem C127_rejected (c : Conv) (zb : β) (coords : C) (topo : Topo) (nNE : Nat) (data : Option (ConvArg β))
    (extra : List (Option (ConvArg β))) (s : Bool) :
    (∀ rows w, w ≠ c.cols → c.call zb coords topo nNE data extra (.arr rows w) s = .error .assertion) ∧
    (∀ n, c.call zb coords topo nNE data extra (.cube n) s = .error .assertion) ∧
    (∀ r, c.call zb coords topo nNE data extra (.row r) s = .error .index) ∧
    (∀ rows, c.call zb coords topo nNE data extra (.nested rows) s = .error .attribute) ∧
    (∀ t, t ≠ "grid" ∨ c.gridTable = none → c.call zb coords topo nNE data extra (.name t) s =
      .error (if c.strict then .notImplemented else .attribute)) := by
  have fin : ∀ p : ConvPath, (∀ d : Option (ConvArg β), transformArgs zb topo nNE p d = .error ConvErr.attribute) →
      convFinish zb coords topo nNE p data extra = .error .attribute := by
    intro p hp
    cases data with
    | none => simp only [convFinish, hp]; rfl
    | some d => simp only [convFinish, hp]; rfl
  have finc : ∀ n, convFinish zb coords topo nNE (.cube n) data extra = .error .assertion := by
    intro n
    cases data with
    | none => simp only [convFinish, transformArgs]; rfl
    | some d => simp only [convFinish, transformArgs]; rfl
  refine ⟨?_, ?_, ?_, ?_, ?_⟩
  · intro rows w hw
    rw [Conv.call_eq, Conv.pathOf_arr, if_neg hw]; rfl
  · intro n
    have e : c.pathOf (.cube n) s = if n = c.cols then .ok (.cube n) else .error .assertion := by cases c <;> rfl
    rw [Conv.call_eq, e]
    by_cases hn : n = c.cols
    · rw [if_pos hn]; exact finc n
    · rw [if_neg hn]; rfl
  · intro r
    have e : c.pathOf (.row r) s = .error .index := by cases c <;> rfl
    rw [Conv.call_eq, e]; rfl
  · intro rows
    have e : c.pathOf (.nested rows) s = .ok (.nested rows) := by cases c <;> rfl
    rw [Conv.call_eq, e]
    exact fin _ fun _ => rfl
  · intro t ht
    have e : c.pathOf (.name t) s = if c.strict then .error .notImplemented else .ok (.name t) := by
      cases c <;> first
        | rfl
        | (have ht' : t ≠ "grid" := by
             rcases ht with h | h
             · exact h
             · cases h
           simp [Conv.pathOf, pathOfQ9Q4, pathOfQ4T3, arrayCols, Conv.strict, ht'])
    rw [Conv.call_eq, e]
    cases c.strict with
    | true => rfl
    | false => exact fin _ fun _ => rfl

/-- The data of an argument follow the cells into the result. -/
def FollowsArg (p : List (List Nat)) (w nNE : Nat) : ConvArg β → ConvOut β → Prop
  | .arr a, .arr b => Follows p w nNE a b
  | .awk (some a), .arr b => Follows p w nNE a b
  | .seq l, .seq r => List.Forall₂ (Follows p w nNE) l r
  | _, _ => False

/-- The arrays of an argument. -/
def ConvArg.arrays : ConvArg β → List (NArr β)
  | .arr a => [a]
  | .awk a => a.toList
  | .seq l => l
  | .atom => []

theorem finish_some (zb : β) (coords : C) {topo : Topo} {p : List (List Nat)} {w nNE : Nat} (h : PathOK topo p w)
    (ht : ∀ c ∈ topo, c.length = nNE) {d : ConvArg β} (hd : d ≠ .atom) (hd' : d ≠ .awk none)
    (ha : ∀ a ∈ d.arrays, a.len = topo.length ∧ a.Proper) (extra : List (Option (ConvArg β))) :
    ∃ r, convFinish zb coords topo nNE (.arr p w) (some d) extra = .ok (coords, transformed topo p 0, some r) ∧
      FollowsArg p w nNE d r := by
  cases d with
  | arr a =>
    obtain ⟨h1, h2⟩ := ha a (List.mem_singleton.2 rfl)
    obtain ⟨b, hb, hf⟩ := convData_ok zb h ht h1 h2
    exact ⟨.arr b, by simp only [convFinish, transformArgs, transformBody, hb, kernel_eq h]; rfl, hf⟩
  | awk a =>
    cases a with
    | none => exact absurd rfl hd'
    | some a =>
      obtain ⟨h1, h2⟩ := ha a (by simp [ConvArg.arrays])
      obtain ⟨b, hb, hf⟩ := convData_ok zb h ht h1 h2
      exact ⟨.arr b, by simp only [convFinish, transformArgs, transformBody, hb, kernel_eq h]; rfl, hf⟩
  | seq l =>
    obtain ⟨r, hr, hf⟩ := mapM_except (f := convData zb topo.length nNE p w) (R := Follows p w nNE) (l := l)
      fun a hal => convData_ok zb h ht (ha a hal).1 (ha a hal).2
    exact ⟨.seq r, by simp only [convFinish, transformArgs, transformBody, hr, kernel_eq h]; rfl, hf⟩
  | atom => exact absurd rfl hd

/-- **C127** Data with one entry per cell are accepted and follow the cells; the cells are those of the call without data, and further
positional arguments do not matter. -/
theorem C127_data (c : Conv) (zb : β) (coords : C) (topo : Topo) (nNE : Nat) (rows : List (List Nat)) (s : Bool)
    (h : PathOK topo rows c.cols) (ht : ∀ x ∈ topo, x.length = nNE) (d : ConvArg β) (hd : d ≠ .atom) (hd' : d ≠ .awk none)
    (ha : ∀ a ∈ d.arrays, a.len = topo.length ∧ a.Proper) (extra : List (Option (ConvArg β))) (path : ConvPath)
    (hp : path = .arr rows c.cols ∨ path = .missing ∧ s = true ∧ rows = c.table ∨
      path = .missing ∧ s = false ∧ c.hasFlag = true ∧ rows = [List.range c.cols] ∨ path = .name "grid" ∧ c.gridTable = some rows) :
    ∃ t r, c.call zb coords topo nNE (some d) extra path s = .ok (coords, t, some r) ∧
      c.call zb coords topo nNE none [] path s = .ok (coords, t, none) ∧ Parts rows topo t ∧ FollowsArg rows c.cols nNE d r := by
  have e : c.pathOf path s = .ok (.arr rows c.cols) := by
    rcases hp with rfl | ⟨rfl, rfl, rfl⟩ | ⟨rfl, rfl, hf, rfl⟩ | ⟨rfl, hg⟩
    · rw [Conv.pathOf_arr, if_pos rfl]
    · exact c.pathOf_missing
    · exact c.pathOf_flag hf
    · cases c <;> cases hg <;> rfl
  obtain ⟨r, hr, hf⟩ := finish_some zb coords h ht hd hd' ha extra
  refine ⟨_, r, ?_, ?_, parts_transformed h 0, hf⟩
  · rw [Conv.call_eq, e]; exact hr
  · rw [Conv.call_eq, e]; exact finish_none zb coords _ h

/-- **C127** Data with another number of entries are an exception, and so are objects that are no data. -/
theorem C127_data_rejected (c : Conv) (zb : β) (coords : C) (topo : Topo) (h : ∀ x ∈ topo, x.length = c.nodes)
    (extra : List (Option (ConvArg β))) :
    (∀ a : NArr β, a.len ≠ topo.length →
      c.call zb coords topo c.nodes (some (.arr a)) extra .missing true = .error .notImplemented ∧
      c.call zb coords topo c.nodes (some (.awk (some a))) extra .missing true = .error .notImplemented) ∧
    (∀ l : List (NArr β), (∀ a ∈ l, a.Proper) → (∃ a ∈ l, a.len ≠ topo.length) →
      c.call zb coords topo c.nodes (some (.seq l)) extra .missing true = .error .notImplemented) ∧
    c.call zb coords topo c.nodes (some (.awk none)) extra .missing true = .error .type ∧
    c.call zb coords topo c.nodes (some .atom) extra .missing true = .error .type := by
  have hok := c.table_ok h
  simp only [Conv.call_eq, Conv.pathOf_missing]
  refine ⟨?_, ?_, ?_, ?_⟩
  · intro a ha
    have e := convData_err (p := c.table) (w := c.cols) (nNE := c.nodes) zb ha
    constructor
    · rw [show ∀ (x : ConvPath) (f : ConvPath → Except ConvErr (C × Topo × Option (ConvOut β))), Except.bind (.ok x) f = f x from fun _ _ => rfl]
      simp only [convFinish, transformArgs, transformBody, e]; rfl
    · rw [show ∀ (x : ConvPath) (f : ConvPath → Except ConvErr (C × Topo × Option (ConvOut β))), Except.bind (.ok x) f = f x from fun _ _ => rfl]
      simp only [convFinish, transformArgs, transformBody, e]; rfl
  · intro l hl hex
    rw [show ∀ (x : ConvPath) (f : ConvPath → Except ConvErr (C × Topo × Option (ConvOut β))), Except.bind (.ok x) f = f x from fun _ _ => rfl]
    have e : l.mapM (convData zb topo.length c.nodes c.table c.cols) = .error .notImplemented := by
      apply mapM_except_err
      · intro a ha
        by_cases hlen : a.len = topo.length
        · obtain ⟨b, hb, _⟩ := convData_ok zb hok h hlen (hl a ha)
          exact Or.inl ⟨b, hb⟩
        · exact Or.inr (convData_err zb hlen)
      · obtain ⟨a, ha, hne⟩ := hex
        exact ⟨a, ha, convData_err zb hne⟩
    simp only [convFinish, transformArgs, transformBody, e, kernel_eq hok]; rfl
  · rw [show ∀ (x : ConvPath) (f : ConvPath → Except ConvErr (C × Topo × Option (ConvOut β))), Except.bind (.ok x) f = f x from fun _ _ => rfl]
    simp only [convFinish, transformArgs, transformBody]; rfl
  · rw [show ∀ (x : ConvPath) (f : ConvPath → Except ConvErr (C × Topo × Option (ConvOut β))), Except.bind (.ok x) f = f x from fun _ _ => rfl]
    simp only [convFinish, transformArgs, transformBody]; rfl

theorem take_of_elevated {K : Type} [Field K] {coords c : List (V3 K)} {topo t : Topo} {n : Nat} {tables : List (List (List Nat))}
    (h : ∀ x ∈ topo, x.length = n) (he : Elevated coords topo n tables c t) : t.map (List.take n) = topo := by
  apply List.ext_getElem?
  intro i
  rw [List.getElem?_map]
  by_cases hi : i < topo.length
  · have hit : i < t.length := by rw [he.cells]; exact hi
    rw [List.getElem?_eq_getElem hit, List.getElem?_eq_getElem hi, Option.map_some]
    congr 1
    apply List.ext_getElem?
    intro j
    by_cases hj : j < n
    · have := he.corners i j hj
      simp only [nodeAt, List.getElem?_eq_getElem hit, List.getElem?_eq_getElem hi, Option.bind_eq_bind, Option.bind_some] at this
      rw [List.getElem?_take_of_lt hj, this]
    · have := h _ (List.getElem_mem hi)
      rw [List.getElem?_eq_none (by simp; omega), List.getElem?_eq_none (by omega)]
  · rw [List.getElem?_eq_none (by rw [he.cells]; omega), List.getElem?_eq_none (by omega)]; rfl

/-- **C127** `T6_to_T3` and `H27_to_H8` with `subdivide=False` undo `T3_to_T6` and `H8_to_H27`: the cells are the old ones, and the old
points come first. The same for `W18_to_W6` and the mesh `W6_to_W18` would return if its faces were all quadrilaterals. -/
theorem C127_undo {K : Type} [Field K] [CharZero K] (zb : β) (coords : List (V3 K)) (topo : Topo) :
    (MeshOK coords topo 3 → ∃ c t, t3ToT6 coords topo = some (c, t) ∧ (∀ m, m < coords.length → c[m]? = coords[m]?) ∧
      t6ToT3 zb c t 6 none [] .missing false = .ok (c, topo, none)) ∧
    (MeshOK coords topo 8 → ∃ c t, h8ToH27 coords topo = some (c, t) ∧ (∀ m, m < coords.length → c[m]? = coords[m]?) ∧
      h27ToH8 zb c t 27 none [] .missing false = .ok (c, topo, none)) ∧
    (MeshOK coords topo 6 → ∃ c t, w6ToW18Quads coords topo = some (c, t) ∧ (∀ m, m < coords.length → c[m]? = coords[m]?) ∧
      w18ToW6 zb c t 18 none [] .missing false = .ok (c, topo, none)) := by
  refine ⟨fun h => ?_, fun h => ?_, fun h => ?_⟩
  · obtain ⟨c, t, e, he⟩ := C12_T3_to_T6 coords topo h
    have hw : ∀ x ∈ t, x.length = 6 := he.width
    refine ⟨c, t, e, he.elevated.pts, ?_⟩
    have := C127_corners .T6_T3 rfl zb c t hw
    exact this.trans (congrArg (fun t => Except.ok (c, t, none)) (take_of_elevated (n := 3) h.len he.elevated))
  · obtain ⟨c, t, e, he, _⟩ := C12_H8_to_H27 coords topo h
    have hw : ∀ x ∈ t, x.length = 27 := he.width
    refine ⟨c, t, e, he.elevated.pts, ?_⟩
    have := C127_corners .H27_H8 rfl zb c t hw
    exact this.trans (congrArg (fun t => Except.ok (c, t, none)) (take_of_elevated (n := 8) h.len he.elevated))
  · obtain ⟨c, t, e, he⟩ := C12_W6_to_W18_partial coords topo h
    have hw : ∀ x ∈ t, x.length = 18 := he.width
    refine ⟨c, t, e, he.elevated.pts, ?_⟩
    have := C127_corners .W18_W6 rfl zb c t hw
    exact this.trans (congrArg (fun t => Except.ok (c, t, none)) (take_of_elevated (n := 6) h.len he.elevated))

/-! ## `Q9_to_T6` -/

theorem mem_q9T6Writes {topo : Topo} {path : List (List Nat)} {x : (Nat × Nat) × Option Nat} :
    x ∈ q9T6Writes topo path ↔ ∃ i j k, i < topo.length ∧ j < 6 ∧ k < 2 ∧ x = ((i * 2 + k, j), pick? topo path i k j) := by
  simp only [q9T6Writes, List.mem_flatMap, List.mem_range, List.mem_cons, List.not_mem_nil, or_false]
  constructor
  · rintro ⟨i, hi, j, hj, rfl | rfl⟩
    · exact ⟨i, j, 0, hi, hj, by omega, rfl⟩
    · exact ⟨i, j, 1, hi, hj, by omega, rfl⟩
  · rintro ⟨i, j, k, hi, hj, hk, rfl⟩
    refine ⟨i, hi, j, hj, ?_⟩
    match k, hk with
    | 0, _ => exact Or.inl rfl
    | 1, _ => exact Or.inr rfl

/-- **C127** `Q9_to_T6` cuts every cell along the first two rows of the path, in whatever order the loops run; further rows are not used. -/
theorem C127_Q9_T6 (coords : C) (topo : Topo) (path : Option (List (List Nat))) (a b : List Nat) (rest : List (List Nat))
    (hp : path.getD pathQ9T6 = a :: b :: rest) (hw : a.length = 6 ∧ b.length = 6)
    (hin : ∀ cell ∈ topo, ∀ q ∈ a ++ b, q < cell.length) :
    ∃ t, q9ToT6 coords topo path = some (coords, t) ∧ Parts [a, b] topo t ∧
      ∀ w, w.Perm (q9T6Writes topo (path.getD pathQ9T6)) → q9T6Result topo w = some t := by
  have hok : PathOK topo [a, b] 6 := by
    refine ⟨?_, ?_⟩
    · intro p hp
      rcases List.mem_cons.1 hp with rfl | hp
      · exact hw.1
      · rw [List.mem_singleton.1 hp]; exact hw.2
    · intro cell hc p hp q hq
      apply hin cell hc
      rcases List.mem_cons.1 hp with rfl | hp
      · exact List.mem_append_left _ hq
      · rw [List.mem_singleton.1 hp] at hq; exact List.mem_append_right _ hq
  have hpick : ∀ i k j, k < 2 → pick? topo (a :: b :: rest) i k j = pick? topo [a, b] i k j := by
    intro i k j hk
    match k, hk with
    | 0, _ => rfl
    | 1, _ => rfl
  have key : ∀ w, w.Perm (q9T6Writes topo (path.getD pathQ9T6)) → q9T6Result topo w = some (transformed topo [a, b] 0) := by
    intro w hperm
    refine transformResult_eq (path := [a, b]) hok 0 fun x => ?_
    rw [hperm.mem_iff, mem_q9T6Writes, hp]
    constructor
    · rintro ⟨i, j, k, hi, hj, hk, rfl⟩; exact ⟨i, j, k, hi, hj, hk, by rw [hpick i k j hk]; rfl⟩
    · rintro ⟨i, j, k, hi, hj, hk, rfl⟩; exact ⟨i, j, k, hi, hj, hk, by rw [hpick i k j hk]; rfl⟩
  refine ⟨_, ?_, parts_transformed hok 0, key⟩
  simp only [q9ToT6, key _ (List.Perm.refl _), Option.map_some]

/-! ## Where the claim is false -/

/-- **C127** is false: where a conversion cannot return the corners only, `subdivide=False` is ignored without a word. -/
theorem C127_subdivide_false (c : Conv) (hc : c.hasFlag = false) (zb : β) (coords : C) (topo : Topo) (nNE : Nat)
    (data : Option (ConvArg β)) (extra : List (Option (ConvArg β))) (path : ConvPath) :
    c.call zb coords topo nNE data extra path false = c.call zb coords topo nNE data extra path true := by
  rw [Conv.call_eq, Conv.call_eq, Conv.pathOf_noflag c hc path false true]

/-- **C127** is false: a path with one axis is fine for `transform_topology`, but not for the conversions. -/
theorem C127_row_false :
    transformArgs (0 : Nat) [[5, 6, 7, 8]] 4 (.row [0, 1, 2]) none = .ok (.topo [[5, 6, 7]]) ∧
    Conv.Q4_T3.call (0 : Nat) () [[5, 6, 7, 8]] 4 none [] (.row [0, 1, 2]) true = .error .index := by
  constructor
  · decide +kernel
  · exact (C127_rejected .Q4_T3 0 () _ 4 none [] true).2.2.1 _

/-- **C127** is false: data of points, which the description of `transform_topology` allows, are an exception; if there are as many
points as cells they are taken for data of cells. Here are the values of the four points of a cell, and of four points of four cells. -/
theorem C127_points_false :
    Conv.Q4_T3.call (0 : Nat) () [[0, 1, 2, 3]] 4 (some (.arr (.flat [10, 20, 30, 40]))) [] .missing true = .error .notImplemented ∧
    Conv.Q4_T3.call (0 : Nat) () [[0, 1, 2, 3], [1, 2, 3, 0], [2, 3, 0, 1], [3, 0, 1, 2]] 4 (some (.arr (.flat [10, 20, 30, 40]))) []
      .missing true = .ok ((), [[0, 1, 2], [0, 2, 3], [1, 2, 3], [1, 3, 0], [2, 3, 0], [2, 0, 1], [3, 0, 1], [3, 1, 2]],
        some (.arr (.flat [10, 10, 20, 20, 30, 30, 40, 40]))) := by
  constructor <;> decide +kernel

theorem body_not_topo (zb : β) (topo : Topo) (nNE : Nat) (p : List (List Nat)) (w : Nat) (d : ConvArg β) (t : Topo) :
    transformBody zb topo nNE p w (some d) ≠ .ok (.topo t) := by
  have two : ∀ {A B : Type} (x : Except ConvErr A) (y : A → Except ConvErr B) (f : A → B → TransRes β) (_ : ∀ a b, f a b ≠ .topo t),
      (do let a ← x; let b ← y a; return f a b) ≠ Except.ok (.topo t) := by
    intro A B x y f hf h
    cases x with
    | error e => cases h
    | ok a =>
      change (do let b ← y a; return f a b) = _ at h
      cases hy : y a with
      | error e => rw [hy] at h; cases h
      | ok b => rw [hy] at h; exact hf a b (Except.ok.inj h)
  match d with
  | .arr a => exact two _ (fun _ => _) _ fun _ _ h => by cases h
  | .awk none => intro h; cases h
  | .awk (some a) => exact two _ (fun _ => _) _ fun _ _ h => by cases h
  | .seq l => exact two _ (fun _ => _) _ fun _ _ h => by cases h
  | .atom => intro h; cases h

theorem args_not_topo (zb : β) (topo : Topo) (nNE : Nat) (p : ConvPath) (d : ConvArg β) (t : Topo) :
    transformArgs zb topo nNE p (some d) ≠ .ok (.topo t) := by
  cases p with
  | arr rows w => exact body_not_topo zb topo nNE rows w d t
  | row r => exact body_not_topo zb topo nNE [r] r.length d t
  | _ => intro h; cases h

/-- **C127** is false: a fourth positional argument after `data=None` becomes the data, and the result is an exception. -/
theorem C127_positional_false (c : Conv) (zb : β) (coords : C) (topo : Topo) (nNE : Nat) (d : ConvArg β)
    (extra : List (Option (ConvArg β))) (path : ConvPath) (s : Bool) :
    ∃ e, c.call zb coords topo nNE none (some d :: extra) path s = .error e := by
  rw [Conv.call_eq]
  cases hp : c.pathOf path s with
  | error e => exact ⟨e, rfl⟩
  | ok p =>
    rw [show ∀ (x : ConvPath) (f : ConvPath → Except ConvErr (C × Topo × Option (ConvOut β))), Except.bind (.ok x) f = f x from fun _ _ => rfl]
    simp only [convFinish, List.head?_cons, Option.join_some]
    cases ht : transformArgs zb topo nNE p (some d) with
    | error e => exact ⟨e, rfl⟩
    | ok r =>
      cases r with
      | topo t => exact absurd ht (args_not_topo zb topo nNE p d t)
      | both t r => exact ⟨.type, rfl⟩
      | nothing => exact ⟨.type, rfl⟩

/-- **C127** is false: a path of one row makes `Q9_to_T6` read outside of it. -/
theorem C127_short_false : q9ToT6 () [[0, 1, 2, 3, 4, 5, 6, 7, 8]] (some [[0, 8, 2, 4, 5, 1]]) = none := by decide +kernel

/-! ## Concrete cases -/

example : Conv.T6_T3.call (0 : Nat) "c" [[0, 1, 2, 3, 4, 5]] 6 (some (.seq [.flat [7], .table [[1, 2, 3, 4, 5, 6]] 6, .table [[8, 9]] 2]))
    [] .missing true = .ok ("c", [[0, 3, 5], [3, 1, 4], [5, 4, 2], [5, 3, 4]], some (.seq [.flat [7, 7, 7, 7],
      .table [[1, 4, 6], [4, 2, 5], [6, 5, 3], [6, 4, 5]] 3, .table [[8, 9], [8, 9], [8, 9], [8, 9]] 2])) := by decide +kernel

example : PathOK [[5, 6, 7, 8]] [[3, 2, 1]] Conv.Q4_T3.cols := ⟨by decide, by decide⟩

example : Conv.Q4_T3.call (0 : Nat) "c" [[5, 6, 7, 8]] 4 none [] (.arr [[3, 2, 1]] 3) true = .ok ("c", [[8, 7, 6]], none) := by decide +kernel

example : q9ToT6 "c" [[0, 1, 2, 3, 4, 5, 6, 7, 8]] none = some ("c", [[0, 8, 2, 4, 5, 1], [0, 6, 8, 3, 7, 4]]) := by decide +kernel

end PM
