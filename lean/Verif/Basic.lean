import Mathlib.Order.Lattice
import Mathlib.Order.Defs.LinearOrder
import Mathlib.Data.List.Basic
import Mathlib.Data.List.Lex
import Mathlib.Data.List.Perm.Basic
import Mathlib.Data.List.Nodup
import Mathlib.Logic.Function.Basic
import Mathlib.Tactic.Common

/-!
# Python/numpy vocabulary shared by the modules

These are the pieces of numpy / numba behaviour the model relies on (see DESIGN.md, trusted base).
-/

namespace PM

/-- A topology: one row of node numbers per cell. Models a 2d `ndarray` (rows of equal length), an awkward
`JaggedArray` or a `TopologyArray` (rows of any length). -/
abbrev Topo := List (List Nat)

/-- Insertion into a strictly sorted list, dropping a repetition. -/
def insertU {α : Type*} [LinearOrder α] (a : α) : List α → List α
  | [] => [a]
  | b :: l => if a < b then a :: b :: l else if b < a then b :: insertU a l else b :: l

/-- `np.unique(x)` of a flattened array: the sorted distinct values. -/
def npUnique {α : Type*} [LinearOrder α] (l : List α) : List α := l.foldr insertU []

/-- `np.unique(x, return_inverse=True)[1]`: the position of every entry in the sorted distinct values. -/
def npUniqueInv {α : Type*} [LinearOrder α] (l : List α) : List Nat :=
  l.map fun x => (npUnique l).idxOf x

/-- Fancy indexing `a[inds]`; `none` models an `IndexError` (out of range). -/
def gather? {α : Type*} (a : List α) (inds : List Nat) : Option (List α) :=
  inds.mapM fun i => a[i]?

/-- An insertion ordered Python/numba dictionary. -/
abbrev PyDict (κ α : Type*) := List (κ × α)

/-- `d[k] = v`. -/
def PyDict.set {κ α : Type*} [DecidableEq κ] (d : PyDict κ α) (k : κ) (v : α) : PyDict κ α :=
  match d with
  | [] => [(k, v)]
  | (k', v') :: d' => if k' = k then (k, v) :: d' else (k', v') :: PyDict.set d' k v

/-- `d[k]`; `none` models a `KeyError`. -/
def PyDict.get? {κ α : Type*} [DecidableEq κ] (d : PyDict κ α) (k : κ) : Option α :=
  match d with
  | [] => none
  | (k', v') :: d' => if k' = k then some v' else PyDict.get? d' k

/-- `max` of a non-empty array; `none` models the `ValueError` numpy raises on an empty one. -/
def maxNode? (l : List Nat) : Option Nat :=
  match l with
  | [] => none
  | a :: l => some (l.foldl max a)

/-- `min` of a non-empty array. -/
def minNode? (l : List Nat) : Option Nat :=
  match l with
  | [] => none
  | a :: l => some (l.foldl min a)

/-- A sequence of array writes `a[p] = v`, executed from left to right on the memory `m`.
A `prange` loop runs its writes in some order: theorems about it quantify over all permutations. -/
def runW {ι α : Type*} [DecidableEq ι] (w : List (ι × α)) (m : ι → α) : ι → α :=
  w.foldl (fun m x => Function.update m x.1 x.2) m

/-- No two writes store different values at one place. -/
def Consistent {ι α : Type*} (w : List (ι × α)) : Prop :=
  ∀ x ∈ w, ∀ y ∈ w, x.1 = y.1 → x.2 = y.2

/-- The first `n` entries of a memory as an array. -/
def toArr {α : Type*} (n : Nat) (m : Nat → α) : List α := (List.range n).map m

/-- An `n × k` array read from a memory. -/
def toRows {α : Type*} (n k : Nat) (m : Nat × Nat → α) : List (List α) :=
  (List.range n).map fun i => (List.range k).map fun j => m (i, j)

/-! ## Lemmas -/

section unique
variable {α : Type*} [LinearOrder α]

theorem mem_insertU {a x : α} {l : List α} : x ∈ insertU a l ↔ x = a ∨ x ∈ l := by
  induction l with
  | nil => simp [insertU]
  | cons b l ih =>
    unfold insertU
    split
    · simp
    · split
      · simp [ih]; tauto
      · have : a = b := le_antisymm (not_lt.mp ‹_›) (not_lt.mp ‹_›)
        subst this; simp

theorem mem_npUnique {x : α} {l : List α} : x ∈ npUnique l ↔ x ∈ l := by
  induction l with
  | nil => simp [npUnique]
  | cons a l ih =>
    have : npUnique (a :: l) = insertU a (npUnique l) := rfl
    rw [this, mem_insertU, ih]; simp

theorem sorted_insertU {a : α} {l : List α} (h : l.Pairwise (· < ·)) :
    (insertU a l).Pairwise (· < ·) := by
  induction l with
  | nil => simp [insertU]
  | cons b l ih =>
    rw [List.pairwise_cons] at h
    unfold insertU
    split
    · rename_i hab
      refine List.pairwise_cons.2 ⟨?_, List.pairwise_cons.2 h⟩
      intro x hx
      rcases List.mem_cons.1 hx with rfl | hx
      · exact hab
      · exact lt_trans hab (h.1 x hx)
    · split
      · rename_i hba
        refine List.pairwise_cons.2 ⟨?_, ih h.2⟩
        intro x hx
        rcases mem_insertU.1 hx with rfl | hx
        · exact hba
        · exact h.1 x hx
      · exact List.pairwise_cons.2 h

theorem sorted_npUnique (l : List α) : (npUnique l).Pairwise (· < ·) := by
  induction l with
  | nil => simp [npUnique]
  | cons a l ih => exact sorted_insertU ih

theorem nodup_npUnique (l : List α) : (npUnique l).Nodup :=
  (sorted_npUnique l).imp fun h => ne_of_lt h

theorem npUnique_getElem_idxOf {l : List α} {x : α} (h : x ∈ l) :
    (npUnique l)[(npUnique l).idxOf x]? = some x :=
  List.getElem?_idxOf (mem_npUnique.2 h)

/-- Two strictly sorted lists with the same members are equal. -/
theorem eq_of_sorted_of_mem {l₁ l₂ : List α} (h₁ : l₁.Pairwise (· < ·)) (h₂ : l₂.Pairwise (· < ·))
    (h : ∀ x, x ∈ l₁ ↔ x ∈ l₂) : l₁ = l₂ := by
  have p : l₁.Perm l₂ := (List.perm_ext_iff_of_nodup (h₁.imp ne_of_lt) (h₂.imp ne_of_lt)).2 h
  exact p.eq_of_pairwise (fun a b _ _ hab hba => absurd hba (lt_asymm hab)) h₁ h₂

end unique

section dict
variable {κ α : Type*} [DecidableEq κ]

theorem PyDict.get?_set (d : PyDict κ α) (k k' : κ) (v : α) :
    (d.set k v).get? k' = if k = k' then some v else d.get? k' := by
  induction d with
  | nil => simp [PyDict.set, PyDict.get?]
  | cons x d ih =>
    obtain ⟨a, b⟩ := x
    simp only [PyDict.set]
    split
    · subst a
      by_cases h : k = k' <;> simp [PyDict.get?, h]
    · by_cases h : a = k'
      · subst h
        simp [PyDict.get?, Ne.symm ‹_›]
      · simp [PyDict.get?, h, ih]

end dict

section gather
variable {α : Type*}

theorem gather?_eq_some {a : List α} {inds : List Nat} (h : ∀ i ∈ inds, i < a.length) :
    ∃ r, gather? a inds = some r ∧ r.length = inds.length ∧
      ∀ k i : Nat, inds[k]? = some i → r[k]? = a[i]? := by
  induction inds with
  | nil => exact ⟨[], rfl, rfl, by simp⟩
  | cons i inds ih =>
    obtain ⟨r, hr, hl, hg⟩ := ih fun j hj => h j (List.mem_cons_of_mem _ hj)
    have hi : i < a.length := h i List.mem_cons_self
    refine ⟨a[i] :: r, ?_, by simp [hl], ?_⟩
    · unfold gather? at hr ⊢
      simp [List.mapM_cons, hr, List.getElem?_eq_getElem hi]
    · intro k j hk
      cases k with
      | zero => simp at hk; subst hk; simp [List.getElem?_eq_getElem hi]
      | succ k => simpa using hg k j (by simpa using hk)

theorem gather?_eq_none {a : List α} {inds : List Nat} (i : Nat) (hi : i ∈ inds) (h : a.length ≤ i) :
    gather? a inds = none := by
  induction inds with
  | nil => simp at hi
  | cons j inds ih =>
    unfold gather? at *
    rcases List.mem_cons.1 hi with rfl | hi
    · simp [List.mapM_cons, List.getElem?_eq_none h]
    · simp only [List.mapM_cons, ih hi]
      cases a[j]? <;> rfl

end gather

section writes
variable {ι α : Type*} [DecidableEq ι]

theorem runW_append (w w' : List (ι × α)) (m : ι → α) : runW (w ++ w') m = runW w' (runW w m) := by
  simp [runW, List.foldl_append]

theorem runW_of_not_mem {w : List (ι × α)} {m : ι → α} {p : ι} (h : ∀ x ∈ w, x.1 ≠ p) :
    runW w m p = m p := by
  induction w generalizing m with
  | nil => rfl
  | cons x w ih =>
    show runW w (Function.update m x.1 x.2) p = m p
    rw [ih fun y hy => h y (List.mem_cons_of_mem _ hy)]
    exact Function.update_of_ne (h x List.mem_cons_self).symm _ _

theorem runW_of_mem {w : List (ι × α)} (hc : Consistent w) {m : ι → α} {x : ι × α} (h : x ∈ w) :
    runW w m x.1 = x.2 := by
  induction w generalizing m x with
  | nil => simp at h
  | cons y w ih =>
    have hc' : Consistent w := fun a ha b hb =>
      hc a (List.mem_cons_of_mem _ ha) b (List.mem_cons_of_mem _ hb)
    show runW w (Function.update m y.1 y.2) x.1 = x.2
    by_cases hx : ∃ z ∈ w, z.1 = x.1
    · obtain ⟨z, hz, hzx⟩ := hx
      rw [← hzx, ih hc' hz]
      exact hc z (List.mem_cons_of_mem _ hz) x h hzx
    · push Not at hx
      rw [runW_of_not_mem hx]
      rcases List.mem_cons.1 h with rfl | h
      · simp
      · exact absurd rfl (hx x h)

/-- Writes that never conflict may be executed in any order. -/
theorem runW_perm {w w' : List (ι × α)} (hc : Consistent w) (hp : w.Perm w') (m : ι → α) :
    runW w' m = runW w m := by
  funext p
  have hc' : Consistent w' := fun a ha b hb =>
    hc a (hp.mem_iff.2 ha) b (hp.mem_iff.2 hb)
  by_cases hx : ∃ z ∈ w, z.1 = p
  · obtain ⟨z, hz, rfl⟩ := hx
    rw [runW_of_mem hc hz, runW_of_mem hc' (hp.mem_iff.1 hz)]
  · push Not at hx
    rw [runW_of_not_mem hx, runW_of_not_mem fun x h => hx x (hp.mem_iff.2 h)]

end writes

section toarr
variable {α : Type*}

@[simp] theorem length_toArr (n : Nat) (m : Nat → α) : (toArr n m).length = n := by simp [toArr]

theorem toArr_getElem? {n i : Nat} (m : Nat → α) (h : i < n) : (toArr n m)[i]? = some (m i) := by
  simp [toArr, List.getElem?_range h]

@[simp] theorem length_toRows (n k : Nat) (m : Nat × Nat → α) : (toRows n k m).length = n := by
  simp [toRows]

theorem toRows_getElem? {n k i : Nat} (m : Nat × Nat → α) (h : i < n) :
    (toRows n k m)[i]? = some ((List.range k).map fun j => m (i, j)) := by
  simp [toRows, List.getElem?_range h]

end toarr

section minmax

theorem le_foldl_max {l : List Nat} {a : Nat} : a ≤ l.foldl max a ∧ ∀ x ∈ l, x ≤ l.foldl max a := by
  induction l generalizing a with
  | nil => simp
  | cons b l ih =>
    have h := ih (a := max a b)
    refine ⟨le_trans (le_max_left _ _) h.1, ?_⟩
    intro x hx
    rcases List.mem_cons.1 hx with rfl | hx
    · exact le_trans (le_max_right _ _) h.1
    · exact h.2 x hx

theorem foldl_max_mem {l : List Nat} {a : Nat} : l.foldl max a = a ∨ l.foldl max a ∈ l := by
  induction l generalizing a with
  | nil => simp
  | cons b l ih =>
    rcases ih (a := max a b) with h | h
    · simp only [List.foldl_cons, h]
      rcases le_total a b with h' | h' <;> simp [h']
    · right; simp only [List.foldl_cons]; exact List.mem_cons_of_mem _ h

theorem maxNode?_spec {l : List Nat} {m : Nat} : maxNode? l = some m ↔ m ∈ l ∧ ∀ x ∈ l, x ≤ m := by
  cases l with
  | nil => simp [maxNode?]
  | cons a l =>
    have h1 := le_foldl_max (l := l) (a := a)
    have h2 := foldl_max_mem (l := l) (a := a)
    have hm : l.foldl max a ∈ a :: l := by
      rcases h2 with h | h
      · rw [h]; exact List.mem_cons_self
      · exact List.mem_cons_of_mem _ h
    have hle : ∀ x ∈ a :: l, x ≤ l.foldl max a := by
      intro x hx
      rcases List.mem_cons.1 hx with rfl | hx
      · exact h1.1
      · exact h1.2 x hx
    simp only [maxNode?, Option.some.injEq]
    constructor
    · rintro rfl; exact ⟨hm, hle⟩
    · rintro ⟨h, h'⟩; exact le_antisymm (h' _ hm) (hle _ h)

theorem maxNode?_ne_none {l : List Nat} (h : l ≠ []) : ∃ m, maxNode? l = some m := by
  cases l with
  | nil => exact absurd rfl h
  | cons a l => exact ⟨_, rfl⟩

theorem foldl_min_le {l : List Nat} {a : Nat} : l.foldl min a ≤ a ∧ ∀ x ∈ l, l.foldl min a ≤ x := by
  induction l generalizing a with
  | nil => simp
  | cons b l ih =>
    have h := ih (a := min a b)
    refine ⟨le_trans h.1 (min_le_left _ _), ?_⟩
    intro x hx
    rcases List.mem_cons.1 hx with rfl | hx
    · exact le_trans h.1 (min_le_right _ _)
    · exact h.2 x hx

theorem foldl_min_mem {l : List Nat} {a : Nat} : l.foldl min a = a ∨ l.foldl min a ∈ l := by
  induction l generalizing a with
  | nil => simp
  | cons b l ih =>
    rcases ih (a := min a b) with h | h
    · simp only [List.foldl_cons, h]
      rcases le_total a b with h' | h' <;> simp [h']
    · right; simp only [List.foldl_cons]; exact List.mem_cons_of_mem _ h

theorem minNode?_spec {l : List Nat} {m : Nat} : minNode? l = some m ↔ m ∈ l ∧ ∀ x ∈ l, m ≤ x := by
  cases l with
  | nil => simp [minNode?]
  | cons a l =>
    have h1 := foldl_min_le (l := l) (a := a)
    have h2 := foldl_min_mem (l := l) (a := a)
    have hm : l.foldl min a ∈ a :: l := by
      rcases h2 with h | h
      · rw [h]; exact List.mem_cons_self
      · exact List.mem_cons_of_mem _ h
    have hle : ∀ x ∈ a :: l, l.foldl min a ≤ x := by
      intro x hx
      rcases List.mem_cons.1 hx with rfl | hx
      · exact h1.1
      · exact h1.2 x hx
    simp only [minNode?, Option.some.injEq]
    constructor
    · rintro rfl; exact ⟨hm, hle⟩
    · rintro ⟨h, h'⟩; exact le_antisymm (hle _ h) (h' _ hm)

end minmax

end PM
