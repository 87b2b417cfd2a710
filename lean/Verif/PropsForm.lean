import Verif.PropsElevate
import Verif.PropsTiling
import Verif.PropsVolW
import Verif.PropsSimplices

/-!
# C112: the form of elevated and of refined cells

The form of a cell is the set of the points `Σ N_i(ξ) x_i` for the points `ξ` of the master cell (`formAt`), with the shape functions `N_i` of
the class of the cell and its nodes `x_i`. The properties are stated for arbitrary nodes: the cells may be distorted, the images of the master
cells need not be affine (compare C14, where they are).
-/

set_option linter.unusedSectionVars false
set_option linter.unusedVariables false

namespace PM

/-! ## specification -/

section
variable {K : Type} [Field K]

/-- The point of a cell at the local coordinates `ξ`: `Σ N_i(ξ) x_i`. -/
def formAt (N : List PE) (X : List (V3 K)) (ξ : V3 K) : V3 K := lincomb (N.map fun e => e.eval ξ) X

/-- The tangents of the cell at `ξ`: `Σ ∂N_i/∂ξ_d x_i` for the three directions `d` (zero, where the cell has less). -/
def tangentsAt (dN : List (List PE)) (X : List (V3 K)) (ξ : V3 K) : Aff K :=
  ⟨0, lincomb (dN.map fun row => (row.getD 0 (.c 0)).eval ξ) X, lincomb (dN.map fun row => (row.getD 1 (.c 0)).eval ξ) X,
    lincomb (dN.map fun row => (row.getD 2 (.c 0)).eval ξ) X⟩

/-- A cell with straight sides: the first `n` nodes are the corners; the further ones lie at the means of the corners listed in `ents` (those of
the edges, of the faces, of the cell). -/
structure StraightCell (n : Nat) (ents : List (List Nat)) (X : List (V3 K)) : Prop where
  len : X.length = n + ents.length
  mean : ∀ (e : Nat) (t : List Nat), ents[e]? = some t → X[n + e]? = some (meanPts (t.map fun q => X.getD q 0))

end

/-! ## expressions in other expressions -/

section
variable {K : Type} [Field K]

/-- Expressions put in place of the coordinates. -/
def PE.subst (a b d : PE) : PE → PE
  | .c q => .c q
  | .r => a
  | .s => b
  | .t => d
  | .add x y => .add (PE.subst a b d x) (PE.subst a b d y)
  | .sub x y => .sub (PE.subst a b d x) (PE.subst a b d y)
  | .mul x y => .mul (PE.subst a b d x) (PE.subst a b d y)
  | .neg x => .neg (PE.subst a b d x)
  | .pow x n => .pow (PE.subst a b d x) n

theorem PE.eval_subst (a b d e : PE) (x : V3 K) :
    (PE.subst a b d e).eval x = e.eval ⟨a.eval x, b.eval x, d.eval x⟩ := by
  induction e with
  | c q => rfl
  | r => rfl
  | s => rfl
  | t => rfl
  | add a b ha hb => simp only [PE.subst, PE.eval, ha, hb]
  | sub a b ha hb => simp only [PE.subst, PE.eval, ha, hb]
  | mul a b ha hb => simp only [PE.subst, PE.eval, ha, hb]
  | neg a ha => simp only [PE.subst, PE.eval, ha]
  | pow a n ha => simp only [PE.subst, PE.eval, ha]

/-- An affine map given in doubled coordinates. -/
def halfAff (K : Type) [Field K] (B : Aff Int) : Aff K := ⟨half B.o, half B.a, half B.b, half B.c⟩

/-- One coordinate of it as an expression. -/
def coordPE (o a b d : Int) : PE :=
  .add (.c (mkRat o 2)) (.add (.add (.mul .r (.c (mkRat a 2))) (.mul .s (.c (mkRat b 2)))) (.mul .t (.c (mkRat d 2))))

/-- An expression behind the map. -/
def PE.behind (B : Aff Int) (e : PE) : PE :=
  PE.subst (coordPE B.o.x B.a.x B.b.x B.c.x) (coordPE B.o.y B.a.y B.b.y B.c.y) (coordPE B.o.z B.a.z B.b.z B.c.z) e

variable [CharZero K]

theorem cast_half (z : Int) : ((mkRat z 2 : ℚ) : K) = (z : K) / 2 := by
  rw [Rat.mkRat_eq_div]; push_cast; rfl

theorem PE.eval_behind (B : Aff Int) (e : PE) (ξ : V3 K) : (e.behind B).eval ξ = e.eval ((halfAff K B).app ξ) := by
  rw [PE.behind, PE.eval_subst]
  congr 1
  ext <;> simp [coordPE, PE.eval, halfAff, Aff.app, half, cast_half]

theorem halfAff_one (ξ : V3 K) : (halfAff K ⟨0, ⟨2, 0, 0⟩, ⟨0, 2, 0⟩, ⟨0, 0, 2⟩⟩).app ξ = ξ := by
  ext <;> simp [halfAff, Aff.app, half]

/-! ## combinations of combinations -/

omit [CharZero K] in
theorem lincomb_comb (k : K) : ∀ (w a : List K) (X : List (V3 K)), w.length = a.length →
    lincomb (List.zipWith (fun q acc => q * k + acc) w a) X = k • lincomb w X + lincomb a X
  | [], [], X, _ => by ext <;> simp [lincomb]
  | [], _ :: _, _, h => by simp at h
  | _ :: _, [], _, h => by simp at h
  | w :: ws, a :: as, [], _ => by ext <;> simp [lincomb]
  | w :: ws, a :: as, p :: ps, h => by
    simp only [List.zipWith_cons_cons, lincomb]
    rw [lincomb_comb k ws as ps (by simpa using h)]
    ext <;> simp <;> ring

omit [CharZero K] in
theorem lincomb_zero : ∀ (n : Nat) (X : List (V3 K)), lincomb (List.replicate n (0 : K)) X = 0
  | 0, X => by simp [lincomb]
  | n + 1, [] => by simp [lincomb, List.replicate_succ]
  | n + 1, p :: ps => by
    rw [List.replicate_succ, lincomb, lincomb_zero n ps]
    ext <;> simp

/-- The weights of the `n` nodes in a combination of points that are combinations of the nodes themselves. -/
def combRows (n : Nat) : List PE → List (List ℚ) → List PE
  | e :: es, w :: ws => List.zipWith (fun q acc => .add (.mul (.c q) e) acc) w (combRows n es ws)
  | _, _ => List.replicate n (.c 0)

theorem combRows_length (n : Nat) : ∀ (N : List PE) (W : List (List ℚ)), (∀ w ∈ W, w.length = n) →
    (combRows n N W).length = n
  | [], _, _ => by simp [combRows]
  | _ :: _, [], _ => by simp [combRows]
  | e :: es, w :: ws, h => by
    rw [combRows, List.length_zipWith, combRows_length n es ws fun w hw => h w (List.mem_cons_of_mem _ hw),
      h w (by simp), Nat.min_self]

/-- Weights in the field. -/
def wts (K : Type) [Field K] (w : List ℚ) : List K := w.map fun q : ℚ => (q : K)

theorem lincomb_rows (n : Nat) (X : List (V3 K)) (ξ : V3 K) : ∀ (N : List PE) (W : List (List ℚ)), (∀ w ∈ W, w.length = n) →
    lincomb (N.map fun e => e.eval ξ) (W.map fun w => lincomb (wts K w) X) = lincomb ((combRows n N W).map fun e => e.eval ξ) X
  | [], W, _ => by
    have : (List.replicate n (PE.c 0)).map (fun e => e.eval ξ) = List.replicate n (0 : K) := by simp [PE.eval]
    rw [combRows, this, lincomb_zero]
    · simp [lincomb]
    · simp
  | _ :: _, [], _ => by
    have : (List.replicate n (PE.c 0)).map (fun e => e.eval ξ) = List.replicate n (0 : K) := by simp [PE.eval]
    rw [combRows, this, lincomb_zero]
    · simp [lincomb]
    · simp
  | e :: es, w :: ws, h => by
    have hws : ∀ w ∈ ws, w.length = n := fun w hw => h w (List.mem_cons_of_mem _ hw)
    rw [combRows, List.map_cons, List.map_cons, lincomb, lincomb_rows n X ξ es ws hws, ← lincomb_comb]
    · rw [wts, List.zipWith_map, List.map_zipWith]
      rfl
    · simp [wts, combRows_length n es ws hws, h w (by simp)]

/-- Equality of lists of expressions as polynomials. -/
def listSame : List PE → List PE → Bool
  | [], [] => true
  | e :: l, e' :: l' => PE.same e e' && listSame l l'
  | _, _ => false

theorem listSame_sound : ∀ {l l' : List PE}, listSame l l' = true → ∀ x : V3 K,
    (l.map fun e => e.eval x) = l'.map fun e => e.eval x
  | [], [], _, x => rfl
  | [], _ :: _, h, _ => by simp [listSame] at h
  | _ :: _, [], h, _ => by simp [listSame] at h
  | e :: l, e' :: l', h, x => by
    simp only [listSame, Bool.and_eq_true] at h
    rw [List.map_cons, List.map_cons, PE.same_sound h.1, listSame_sound h.2]

/-- The check: with nodes that are combinations `W` of the nodes of the cell with the functions `N`, the functions `N'` give the same points, at
the place `B` in its master. -/
def formCheck (N' N : List PE) (W : List (List ℚ)) (B : Aff Int) : Bool :=
  listSame (combRows N.length N' W) (N.map (PE.behind B)) && W.all fun w => w.length == N.length

theorem form_of_check {N' N : List PE} {W : List (List ℚ)} {B : Aff Int} (h : formCheck N' N W B = true) (X : List (V3 K)) (ξ : V3 K) :
    formAt N' (W.map fun w => lincomb (wts K w) X) ξ = formAt N X ((halfAff K B).app ξ) := by
  simp only [formCheck, Bool.and_eq_true, List.all_eq_true, beq_iff_eq] at h
  rw [formAt, formAt, lincomb_rows N.length X ξ N' W h.2, listSame_sound h.1]
  simp only [List.map_map]
  congr 1
  apply List.map_congr_left
  intro e _
  exact PE.eval_behind B e ξ

/-- The same for the tangents. -/
def tangentCheck (dN : List (List PE)) (W : List (List ℚ)) (B : Aff Int) : Bool :=
  ([(0, B.a), (1, B.b), (2, B.c)].all fun p =>
    listSame (combRows dN.length (dN.map fun row => row.getD p.1 (.c 0)) W)
      (dN.map fun row => .add (.add (.mul (.c (mkRat p.2.x 2)) ((row.getD 0 (.c 0)).behind B)) (.mul (.c (mkRat p.2.y 2)) ((row.getD 1 (.c 0)).behind B)))
        (.mul (.c (mkRat p.2.z 2)) ((row.getD 2 (.c 0)).behind B)))) && W.all fun w => w.length == dN.length

omit [CharZero K] in
theorem lincomb_three (x y z : K) : ∀ {α : Type} (l : List α) (f g h : α → K) (X : List (V3 K)),
    lincomb (l.map fun i => x * f i + y * g i + z * h i) X =
      x • lincomb (l.map f) X + y • lincomb (l.map g) X + z • lincomb (l.map h) X
  | _, [], f, g, h, X => by ext <;> simp [lincomb]
  | _, i :: l, f, g, h, [] => by ext <;> simp [lincomb]
  | _, i :: l, f, g, h, p :: ps => by
    simp only [List.map_cons, lincomb]
    rw [lincomb_three x y z l f g h ps]
    ext <;> simp <;> ring

theorem tangents_of_check {dN : List (List PE)} {W : List (List ℚ)} {B : Aff Int} (h : tangentCheck dN W B = true)
    (X : List (V3 K)) (ξ : V3 K) :
    (tangentsAt dN (W.map fun w => lincomb (wts K w) X) ξ).a = (tangentsAt dN X ((halfAff K B).app ξ)).lin (half B.a) ∧
    (tangentsAt dN (W.map fun w => lincomb (wts K w) X) ξ).b = (tangentsAt dN X ((halfAff K B).app ξ)).lin (half B.b) ∧
    (tangentsAt dN (W.map fun w => lincomb (wts K w) X) ξ).c = (tangentsAt dN X ((halfAff K B).app ξ)).lin (half B.c) := by
  simp only [tangentCheck, Bool.and_eq_true, List.all_eq_true, beq_iff_eq] at h
  obtain ⟨h1, h2⟩ := h
  have key : ∀ (d : Nat) (v : V3 Int), (d, v) ∈ [(0, B.a), (1, B.b), (2, B.c)] →
      lincomb (dN.map fun row => (row.getD d (.c 0)).eval ξ) (W.map fun w => lincomb (wts K w) X) =
        (tangentsAt dN X ((halfAff K B).app ξ)).lin (half v) := by
    intro d v hv
    have e := listSame_sound (K := K) (h1 (d, v) hv) ξ
    have e2 := lincomb_rows dN.length X ξ (dN.map fun row => row.getD d (.c 0)) W h2
    rw [List.map_map] at e2
    rw [show (dN.map fun row => (row.getD d (.c 0)).eval ξ) = dN.map ((fun e => PE.eval ξ e) ∘ fun row => row.getD d (.c 0)) from rfl, e2, e, List.map_map]
    have e3 : (dN.map ((fun e => PE.eval ξ e) ∘ fun row => PE.add (.add (.mul (.c (mkRat v.x 2)) ((row.getD 0 (.c 0)).behind B)) (.mul (.c (mkRat v.y 2)) ((row.getD 1 (.c 0)).behind B)))
        (.mul (.c (mkRat v.z 2)) ((row.getD 2 (.c 0)).behind B)))) =
        dN.map fun row => (v.x : K) / 2 * (row.getD 0 (.c 0)).eval ((halfAff K B).app ξ) + (v.y : K) / 2 * (row.getD 1 (.c 0)).eval ((halfAff K B).app ξ) +
          (v.z : K) / 2 * (row.getD 2 (.c 0)).eval ((halfAff K B).app ξ) := by
      apply List.map_congr_left
      intro row _
      simp only [Function.comp_apply, PE.eval, cast_half, PE.eval_behind]
    rw [e3, lincomb_three]
    rfl
  exact ⟨key 0 B.a (by simp), key 1 B.b (by simp), key 2 B.c (by simp)⟩

/-! ## nodes of cells with straight sides as combinations of their corners -/

/-- Weights of the mean of the listed ones of `n` nodes. -/
def meanW (n : Nat) (t : List Nat) : List ℚ := (List.range n).map fun i => mkRat (t.count i) t.length

/-- Weights of the nodes of a cell with straight sides. -/
def straightW (n : Nat) (ents : List (List Nat)) : List (List ℚ) := ((List.range n).map fun i => meanW n [i]) ++ ents.map (meanW n)

omit [CharZero K] in
theorem lincomb_range : ∀ (n : Nat) (w : Nat → K) (X : List (V3 K)), n ≤ X.length →
    lincomb ((List.range n).map w) X =
      ⟨((List.range n).map fun i => w i * (X.getD i 0).x).sum, ((List.range n).map fun i => w i * (X.getD i 0).y).sum,
        ((List.range n).map fun i => w i * (X.getD i 0).z).sum⟩
  | 0, w, X, _ => by simp [lincomb]; rfl
  | n + 1, w, [], h => by simp at h
  | n + 1, w, p :: ps, h => by
    rw [List.range_succ_eq_map]
    simp only [List.map_cons, List.map_map, lincomb, List.sum_cons]
    have := lincomb_range n (fun i => w (i + 1)) ps (by simpa using h)
    simp only [Function.comp_def]
    rw [this]
    ext <;> simp

omit [CharZero K] in
theorem sum_count (n : Nat) (f : Nat → K) : ∀ (t : List Nat), (∀ q ∈ t, q < n) →
    ((List.range n).map fun i => (t.count i : K) * f i).sum = (t.map f).sum
  | [], _ => by simp
  | q :: t, h => by
    have ih := sum_count n f t fun q hq => h q (List.mem_cons_of_mem _ hq)
    rw [List.map_cons, List.sum_cons, ← ih]
    have e : ((List.range n).map fun i => ((q :: t).count i : K) * f i) =
        (List.range n).map fun i => (if i = q then f q else 0) + (t.count i : K) * f i := by
      apply List.map_congr_left
      intro i _
      rw [List.count_cons]
      by_cases hi : i = q
      · subst hi; simp; ring
      · have : ¬ q = i := fun e => hi e.symm
        simp [hi, this]
    rw [e, List.sum_map_add]
    congr 1
    have := sum_range_ite n q (h q (by simp)) fun _ => f q
    simpa using this

theorem lincomb_mean {n : Nat} {t : List Nat} (h : ∀ q ∈ t, q < n) {X : List (V3 K)} (hX : n ≤ X.length) :
    lincomb (wts K (meanW n t)) X = meanPts (t.map fun q => X.getD q 0) := by
  rw [wts, meanW, List.map_map]
  rw [show ((fun q : ℚ => (q : K)) ∘ fun i => mkRat (t.count i) t.length) = fun i => (t.count i : K) / t.length by
    funext i
    simp only [Function.comp_apply, Rat.mkRat_eq_div]
    push_cast; rfl]
  rw [lincomb_range n _ X hX]
  have e : ∀ f : Nat → K, ((List.range n).map fun i => (t.count i : K) / t.length * f i).sum = (t.map f).sum / t.length := by
    intro f
    rw [← sum_count n f t h, div_eq_mul_inv, ← List.sum_map_mul_right]
    congr 1
    apply List.map_congr_left
    intro i _
    ring
  rw [e fun i => (X.getD i 0).x, e fun i => (X.getD i 0).y, e fun i => (X.getD i 0).z]
  simp [meanPts, Function.comp_def]

theorem straight_nodes {n : Nat} {ents : List (List Nat)} (he : ∀ t ∈ ents, ∀ q ∈ t, q < n) {X : List (V3 K)} (h : StraightCell n ents X) :
    X = (straightW n ents).map fun w => lincomb (wts K w) X := by
  apply List.ext_getElem?
  intro j
  have hn : n ≤ X.length := by rw [h.len]; omega
  rw [straightW, List.map_append, List.map_map, List.map_map]
  by_cases hj : j < n
  · rw [List.getElem?_append_left (by simpa using hj), List.getElem?_map, List.getElem?_range hj, Option.map_some, Function.comp_apply,
      lincomb_mean (by simpa using hj) hn]
    have : j < X.length := by omega
    rw [List.getElem?_eq_getElem this]
    congr 1
    ext <;> simp [meanPts, this]
  · rw [List.getElem?_append_right (by simpa using hj)]
    simp only [List.length_map, List.length_range]
    rw [List.getElem?_map]
    obtain ⟨e, rfl⟩ : ∃ e, j = n + e := ⟨j - n, by omega⟩
    rw [Nat.add_sub_cancel_left]
    cases hk : ents[e]? with
    | none =>
      have := List.getElem?_eq_none_iff.1 hk
      rw [List.getElem?_eq_none (by rw [h.len]; omega)]; rfl
    | some t =>
      rw [h.mean e t hk, Option.map_some, Function.comp_apply, lincomb_mean (he t (List.mem_of_getElem? hk)) hn]


/-! ## elevated cells -/

omit [CharZero K] in
theorem flatten_column : ∀ (tables : List (List (List Nat))) (k e : Nat) (tab : List (List Nat)), tables[k]? = some tab → e < tab.length →
    tables.flatten[((tables.take k).map List.length).sum + e]? = tab[e]?
  | [], k, e, tab, h, _ => by simp at h
  | t0 :: ts, 0, e, tab, h, he => by
    obtain rfl : t0 = tab := by simpa using h
    simp [List.getElem?_append_left he]
  | t0 :: ts, k + 1, e, tab, h, he => by
    have := flatten_column ts k e tab (by simpa using h) he
    rw [List.take_succ_cons, List.map_cons, List.sum_cons, List.flatten_cons, Nat.add_assoc,
      List.getElem?_append_right (by omega), Nat.add_sub_cancel_left, this]

omit [CharZero K] in
/-- The nodes of an elevated cell: its corners are those of the cell before, the other nodes lie where they do in a cell with straight sides. -/
theorem elevated_straight {coords : List (V3 K)} {topo : Topo} {n : Nat} {tables : List (List (List Nat))} {ents : List (List Nat)}
    {c : List (V3 K)} {t : Topo} (h : MeshOK coords topo n) (ht : ∀ tab ∈ tables, ∀ t ∈ tab, ∀ q ∈ t, q < n)
    (ok : Elevated coords topo n tables c t) (hw : ∀ r ∈ t, r.length = n + ents.length)
    (hlt : ∀ (i j m : Nat), nodeAt t i j = some m → m < c.length)
    (he : ents = tables.flatten ∨ ents = tables.flatten ++ [List.range n] ∧ Centred coords topo (n + tables.flatten.length) c t)
    {i : Nat} {cell : List Nat} (hi : topo[i]? = some cell) :
    ∃ row X, t[i]? = some row ∧ gather? c row = some X ∧ gather? coords cell = some (X.take n) ∧ StraightCell n ents X := by
  have hit : i < t.length := by rw [ok.cells]; exact (List.getElem?_eq_some_iff.1 hi).1
  have hrow : t[i]? = some t[i] := List.getElem?_eq_getElem hit
  have hcell : cell ∈ topo := List.mem_of_getElem? hi
  have hlen := h.len cell hcell
  have hrl := hw _ (List.getElem_mem hit)
  have hnode : ∀ j : Nat, nodeAt t i j = t[i][j]? := fun j => by simp [nodeAt, hrow]
  obtain ⟨X, g1, g2, g3⟩ := gather?_eq_some (a := c) (inds := t[i]) (by
    intro m hm
    obtain ⟨j, hj⟩ := List.mem_iff_getElem?.1 hm
    exact hlt i j m (by rw [hnode, hj]))
  obtain ⟨Y, y1, y2, y3⟩ := gather?_eq_some (a := coords) (inds := cell) (h.lt cell hcell)
  have hXY : ∀ q, q < n → X[q]? = Y[q]? := by
    intro q hq
    have hqc : q < cell.length := by omega
    have e1 : nodeAt t i q = some cell[q] := by
      rw [ok.corners i q hq]; simp [nodeAt, hi, List.getElem?_eq_getElem hqc]
    rw [hnode] at e1
    rw [g3 q _ e1, y3 q _ (List.getElem?_eq_getElem hqc), ok.pts _ (h.lt cell hcell _ (List.getElem_mem hqc))]
  have hYX : Y = X.take n := by
    apply List.ext_getElem?
    intro q
    rw [List.getElem?_take]
    by_cases hq : q < n
    · rw [if_pos hq, hXY q hq]
    · rw [if_neg hq, List.getElem?_eq_none (by omega)]
  have hpt : ∀ q, q < n → coords.getD (cell.getD q 0) 0 = X.getD q 0 := by
    intro q hq
    have hqc : q < cell.length := by omega
    rw [List.getD_eq_getElem?_getD, List.getD_eq_getElem?_getD (l := X), hXY q hq, y3 q _ (List.getElem?_eq_getElem hqc), getD_of_lt hqc]
  refine ⟨t[i], X, hrow, g1, by rw [y1, hYX], by rw [g2, hrl], ?_⟩
  intro e u hu
  have hcol : e < tables.flatten.length → tables.flatten[e]? = some u → X[n + e]? = some (meanPts (u.map fun q => X.getD q 0)) := by
    intro hel hu
    obtain ⟨k, e', tab, h1, h2, h3⟩ := exists_column tables e (by simpa [List.length_flatten] using hel)
    obtain ⟨m, _, m1, m2⟩ := ok.place k e' i tab cell h1 h2 hi
    rw [Nat.add_assoc, ← h3, hnode] at m1
    rw [g3 _ _ m1, m2]
    have hfl := flatten_column tables k e' tab h1 h2
    rw [← h3, hu] at hfl
    have hu' : tab.getD e' [] = u := by rw [List.getD_eq_getElem?_getD, ← hfl]; rfl
    rw [entNodes, hu', ptsOf, List.map_map]
    congr 2
    apply List.map_congr_left
    intro q hq
    exact hpt q (ht tab (List.mem_of_getElem? h1) u (List.mem_of_getElem? hfl.symm) q hq)
  rcases he with rfl | ⟨rfl, hcen⟩
  · exact hcol (List.getElem?_eq_some_iff.1 hu).1 hu
  · by_cases hel : e < tables.flatten.length
    · exact hcol hel (by rwa [List.getElem?_append_left hel] at hu)
    · have hel2 : e < (tables.flatten ++ [List.range n]).length := (List.getElem?_eq_some_iff.1 hu).1
      have hee : e = tables.flatten.length := by simp at hel2 hel; simp; omega
      subst hee
      obtain rfl : List.range n = u := by simpa using hu
      obtain ⟨m, _, m1, m2, _⟩ := hcen i cell hi
      rw [hnode] at m1
      rw [g3 _ _ m1, m2, ptsOf]
      congr 2
      apply List.ext_getElem
      · simp [hlen]
      · intro q q1 q2
        have hqn : q < n := by simpa using q2
        have := hpt q hqn
        rw [getD_of_lt (show q < cell.length by omega)] at this
        simpa using this

omit [CharZero K] in
/-- Functions of the corners alone. -/
theorem formAt_take (N : List PE) (X : List (V3 K)) (ξ : V3 K) : formAt N (X.take N.length) ξ = formAt N X ξ := by
  unfold formAt
  generalize hw : (N.map fun e => e.eval ξ) = w
  have hl : w.length = N.length := by rw [← hw]; simp
  rw [← hl]
  clear hw hl
  induction w generalizing X with
  | nil => simp [lincomb]
  | cons a w ih =>
    cases X with
    | nil => simp [lincomb]
    | cons p X => simp only [List.length_cons, List.take_succ_cons, lincomb, ih]

/-- A mesh whose cells have the form of the cells of another: cell by cell, the two give the same points at the same local coordinates. -/
structure SameForm (coords : List (V3 K)) (topo : Topo) (N : List PE) (c : List (V3 K)) (t : Topo) (N' : List PE) : Prop where
  cells : t.length = topo.length
  form : ∀ (i : Nat) (cell : List Nat), topo[i]? = some cell → ∃ row X X', t[i]? = some row ∧ gather? coords cell = some X ∧
    gather? c row = some X' ∧ X.length = N.length ∧ X'.length = N'.length ∧ ∀ ξ, formAt N' X' ξ = formAt N X ξ

/-- The identity, in doubled coordinates. -/
def one2 : Aff Int := ⟨0, ⟨2, 0, 0⟩, ⟨0, 2, 0⟩, ⟨0, 0, 2⟩⟩

theorem same_form {coords : List (V3 K)} {topo : Topo} {n : Nat} {tables : List (List (List Nat))} {ents : List (List Nat)}
    {c : List (V3 K)} {t : Topo} (h : MeshOK coords topo n) (ht : ∀ tab ∈ tables, ∀ t ∈ tab, ∀ q ∈ t, q < n)
    (ok : Elevated coords topo n tables c t) (hw : ∀ r ∈ t, r.length = n + ents.length)
    (hlt : ∀ (i j m : Nat), nodeAt t i j = some m → m < c.length)
    (he : ents = tables.flatten ∨ ents = tables.flatten ++ [List.range n] ∧ Centred coords topo (n + tables.flatten.length) c t)
    {N N' : List PE} (hN : N.length = n) (hN' : N'.length = n + ents.length)
    (hc : formCheck N' N (straightW n ents) one2 = true) : SameForm coords topo N c t N' := by
  have hen : ∀ t ∈ ents, ∀ q ∈ t, q < n := by
    have h0 : ∀ t ∈ tables.flatten, ∀ q ∈ t, q < n := by
      intro u hu
      obtain ⟨tab, h1, h2⟩ := List.mem_flatten.1 hu
      exact ht tab h1 u h2
    rcases he with rfl | ⟨rfl, _⟩
    · exact h0
    · intro u hu
      rcases List.mem_append.1 hu with hu | hu
      · exact h0 u hu
      · obtain rfl := List.mem_singleton.1 hu
        intro q hq
        exact List.mem_range.1 hq
  refine ⟨ok.cells, fun i cell hi => ?_⟩
  obtain ⟨row, X, r1, r2, r3, r4⟩ := elevated_straight h ht ok hw hlt he hi
  refine ⟨row, X.take n, X, r1, r3, r2, by rw [List.length_take, r4.len, hN]; omega, by rw [r4.len, hN'], fun ξ => ?_⟩
  have e := form_of_check hc X ξ
  rw [← straight_nodes hen r4] at e
  rw [e, ← hN, formAt_take, one2, halfAff_one]


/-! ## C112: elevation -/

/-- Nodes of `T6` besides the corners. -/
def entsT6 : List (List Nat) := [[0, 1], [1, 2], [2, 0]]
/-- Nodes of `Q9` besides the corners. -/
def entsQ9 : List (List Nat) := [[0, 1], [1, 2], [2, 3], [3, 0], [0, 1, 2, 3]]
/-- Nodes of `TET10` besides the corners. -/
def entsTET10 : List (List Nat) := [[0, 1], [1, 2], [2, 0], [0, 3], [1, 3], [2, 3]]
/-- Nodes of `H27` besides the corners. -/
def entsH27 : List (List Nat) := [[0, 1], [1, 2], [2, 3], [3, 0], [4, 5], [5, 6], [6, 7], [7, 4], [0, 4], [1, 5], [2, 6], [3, 7],
  [0, 4, 7, 3], [1, 2, 6, 5], [0, 1, 5, 4], [2, 3, 7, 6], [0, 3, 2, 1], [4, 5, 6, 7], [0, 1, 2, 3, 4, 5, 6, 7]]
/-- Nodes of `W18` besides the corners. -/
def entsW18 : List (List Nat) := [[0, 1], [1, 2], [2, 0], [3, 4], [4, 5], [5, 3], [0, 3], [1, 4], [2, 5],
  [4, 3, 0, 1], [5, 4, 1, 2], [3, 5, 2, 0]]

/-- **C112** `T3_to_T6` keeps the form of the cells. -/
theorem C112_T3_to_T6 (coords : List (V3 K)) (topo : Topo) (h : MeshOK coords topo 3) :
    ∃ c t, t3ToT6 coords topo = some (c, t) ∧ SameForm coords topo Shp.shpT3 c t Shp.shpT6 := by
  obtain ⟨c, t, e, ok⟩ := C12_T3_to_T6 coords topo h
  exact ⟨c, t, e, same_form (ents := entsT6) h (by decide) ok.elevated ok.width ok.inRange (Or.inl rfl) rfl rfl (by decide +kernel)⟩

/-- **C112** `Q4_to_Q9` keeps the form of the cells. -/
theorem C112_Q4_to_Q9 (coords : List (V3 K)) (topo : Topo) (h : MeshOK coords topo 4) :
    ∃ c t, q4ToQ9 coords topo = some (c, t) ∧ SameForm coords topo Shp.shpQ4 c t Shp.shpQ9 := by
  obtain ⟨c, t, e, ok, okc⟩ := C12_Q4_to_Q9 coords topo h
  exact ⟨c, t, e, same_form (ents := entsQ9) h (by decide) ok.elevated ok.width ok.inRange (Or.inr ⟨rfl, okc⟩) rfl rfl (by decide +kernel)⟩

/-- **C112** `H8_to_H27` keeps the form of the cells. -/
theorem C112_H8_to_H27 (coords : List (V3 K)) (topo : Topo) (h : MeshOK coords topo 8) :
    ∃ c t, h8ToH27 coords topo = some (c, t) ∧ SameForm coords topo Shp.shpH8 c t Shp.shpH27 := by
  obtain ⟨c, t, e, ok, okc⟩ := C12_H8_to_H27 coords topo h
  exact ⟨c, t, e, same_form (ents := entsH27) h (by decide) ok.elevated ok.width ok.inRange (Or.inr ⟨rfl, okc⟩) rfl rfl (by decide +kernel)⟩


/-- **C112** `TET4_to_TET10` keeps the form of the cells; the functions of `TET10` are generated, with whatever inverse. -/
theorem C112_TET4_to_TET10 {inv : List (List ℚ) → Option (List (List ℚ))} (hinv : InvContract inv) {dirs : List Dir} {N : List PE}
    {dN : List (List PE)} (hN : generate inv (nodesQ lcTET10) Shp.baseTET10 dirs = some (N, dN)) (coords : List (V3 K)) (topo : Topo)
    (h : MeshOK coords topo 4) :
    ∃ c t, tet4ToTet10 coords topo = some (c, t) ∧ SameForm coords topo Shp.shpTET4 c t N := by
  obtain ⟨rfl, _⟩ := generate_explicit hinv (by decide +kernel) inverseTET10 hN
  obtain ⟨c, t, e, ok⟩ := C12_TET4_to_TET10 coords topo h
  exact ⟨c, t, e, same_form (ents := entsTET10) h (by decide) ok.elevated ok.width ok.inRange (Or.inl rfl) rfl (by decide +kernel) (by decide +kernel)⟩

/-- **C112** `W6_to_W18` keeps the form of the cells. Missing: `faces_W6`, called on the way, writes outside of its array (`C12_W6_to_W18_false`);
the statement is about the conversion without that call. -/
theorem C112_W6_to_W18_partial {inv : List (List ℚ) → Option (List (List ℚ))} (hinv : InvContract inv) {dirs dirs' : List Dir} {N N' : List PE}
    {dN dN' : List (List PE)} (hN : generate inv (nodesQ lcW6) Shp.baseW6 dirs = some (N, dN))
    (hN' : generate inv (nodesQ lcW18) Shp.baseW18 dirs' = some (N', dN')) (coords : List (V3 K)) (topo : Topo)
    (h : MeshOK coords topo 6) :
    ∃ c t, w6ToW18Quads coords topo = some (c, t) ∧ SameForm coords topo N c t N' := by
  obtain ⟨rfl, _⟩ := generate_explicit hinv (by decide +kernel) inverseW6 hN
  obtain ⟨rfl, _⟩ := generate_explicit hinv (by decide +kernel) inverseW18 hN'
  obtain ⟨c, t, e, ok⟩ := C12_W6_to_W18_partial coords topo h
  exact ⟨c, t, e, same_form (ents := entsW18) h (by decide) ok.elevated ok.width ok.inRange (Or.inl rfl) (by decide +kernel) (by decide +kernel)
    (by decide +kernel)⟩

/-- **C112** `L2_to_L3` keeps the form of the cells. -/
theorem C112_L2_to_L3 {inv : List (List ℚ) → Option (List (List ℚ))} (hinv : InvContract inv) {dirs : List Dir} {N : List PE}
    {dN : List (List PE)} (hN : generate inv (nodesQ Shp.lcL3) Shp.baseL3 dirs = some (N, dN)) (coords : List (V3 K)) (topo : Topo)
    (h : MeshOK coords topo 2) :
    ∃ c t, l2ToL3 coords topo = some (c, t) ∧ SameForm coords topo Shp.shpL2 c t N := by
  obtain ⟨rfl, _⟩ := generate_explicit hinv (by decide +kernel) inverseL3 hN
  obtain ⟨c, t, e, ok1, ok2, ok3, _⟩ := C12_L2_to_L3 coords topo h
  refine ⟨c, t, e, ok1, fun i cell hi => ?_⟩
  have hl := h.len cell (List.mem_of_getElem? hi)
  match cell, hl, hi with
  | [a, b], _, hi =>
    obtain ⟨m, h1, _, pa, pb, h2, h3, h4⟩ := ok3 i a b hi
    have hlt := h.lt _ (List.mem_of_getElem? hi)
    have ha := ok2 a (hlt a (by simp))
    have hb := ok2 b (hlt b (by simp))
    refine ⟨[a, m, b], [pa, pb], [pa, mid pa pb, pb], h1, by simp [gather?, h2, h3], by simp [gather?, ha, hb, h2, h3, h4], rfl, rfl, fun ξ => ?_⟩
    have hc : formCheck ((List.range (nodesQ Shp.lcL3).length).map (genShp (over8 inv8L3) (.c 1 :: Shp.baseL3.tail))) Shp.shpL2
        [meanW 2 [0], meanW 2 [0, 1], meanW 2 [1]] one2 = true := by decide +kernel
    have e := form_of_check hc [pa, pb] ξ
    have e2 : ([meanW 2 [0], meanW 2 [0, 1], meanW 2 [1]].map fun w => lincomb (wts K w) [pa, pb]) = [pa, mid pa pb, pb] := by
      simp only [List.map_cons, List.map_nil]
      rw [lincomb_mean (by decide) (by simp), lincomb_mean (by decide) (by simp), lincomb_mean (by decide) (by simp)]
      congr 1
      · ext <;> simp [meanPts]
      · congr 1
        · ext <;> simp [meanPts, mid] <;> ring
        · congr 1
          ext <;> simp [meanPts]
    rw [e2] at e
    rw [e, one2, halfAff_one]

end

/-! ## refined cells -/

section
variable {K : Type} [Field K] [LinearOrder K] [IsStrictOrderedRing K]

/-- Hulls of points of a hull. -/
theorem hull_of_hull_aux {P : List (V3 K)} : ∀ (w : List K) (pts : List (V3 K)), w.length = pts.length → (∀ a ∈ w, 0 ≤ a) →
    (∀ p ∈ pts, Hull P p) → ∃ u : List K, u.length = P.length ∧ (∀ a ∈ u, 0 ≤ a) ∧ u.sum = w.sum ∧ lincomb u P = lincomb w pts
  | [], [], _, _, _ => ⟨List.replicate P.length 0, by simp, fun a ha => by rw [List.eq_of_mem_replicate ha], by simp, by rw [lincomb_zero]; rfl⟩
  | [], _ :: _, h, _, _ => by simp at h
  | _ :: _, [], h, _, _ => by simp at h
  | a :: w, p :: pts, h, h0, hp => by
    obtain ⟨u, u1, u2, u3, u4⟩ := hull_of_hull_aux w pts (by simpa using h) (fun a ha => h0 a (List.mem_cons_of_mem _ ha))
      fun p hq => hp p (List.mem_cons_of_mem _ hq)
    obtain ⟨v, v1, v2, v3, v4⟩ := hp p (by simp)
    have hl : v.length = u.length := by rw [v1, u1]
    have hs : ∀ (v u : List K), v.length = u.length → (List.zipWith (fun q acc => q * a + acc) v u).sum = a * v.sum + u.sum := by
      intro v
      induction v with
      | nil => intro u hu; cases u with
        | nil => simp
        | cons _ _ => simp at hu
      | cons x v ih => intro u hu; cases u with
        | nil => simp at hu
        | cons y u => simp only [List.zipWith_cons_cons, List.sum_cons, ih u (by simpa using hu)]; ring
    refine ⟨List.zipWith (fun q acc => q * a + acc) v u, by simp [hl, u1], ?_, ?_, ?_⟩
    · intro x hx
      obtain ⟨i, hi, rfl⟩ := List.mem_iff_getElem.1 hx
      rw [List.getElem_zipWith]
      exact add_nonneg (mul_nonneg (v2 _ (List.getElem_mem _)) (h0 a (by simp))) (u2 _ (List.getElem_mem _))
    · rw [hs v u hl, v3, u3, mul_one, List.sum_cons]
    · rw [lincomb_comb a v u P hl, v4, u4, lincomb]

theorem hull_of_hull {P pts : List (V3 K)} {p : V3 K} (h : Hull pts p) (hp : ∀ q ∈ pts, Hull P q) : Hull P p := by
  obtain ⟨w, w1, w2, w3, w4⟩ := h
  obtain ⟨u, u1, u2, u3, u4⟩ := hull_of_hull_aux w pts w1 w2 hp
  exact ⟨u, u1, u2, by rw [u3, w3], by rw [u4, w4]⟩

theorem openHull_map_of (A : Aff K) {pts : List (V3 K)} {p : V3 K} (h : OpenHull pts p) : OpenHull (pts.map A.app) (A.app p) := by
  obtain ⟨w, hl, h0, h1, rfl⟩ := h
  exact ⟨w, by simpa using hl, h0, h1, lincomb_app_one A hl h1⟩

theorem hull_of_open {pts : List (V3 K)} {p : V3 K} (h : OpenHull pts p) : Hull pts p := by
  obtain ⟨w, hl, h0, h1, rfl⟩ := h
  exact ⟨w, hl, fun a ha => (h0 a ha).le, h1, rfl⟩

/-- The mean of some of the points is in their hull. -/
theorem mean_hull {n : Nat} {t : List Nat} (h0 : t ≠ []) (h : ∀ q ∈ t, q < n) {X : List (V3 K)} (hX : X.length = n) :
    Hull X (meanPts (t.map fun q => X.getD q 0)) := by
  have hl : (t.length : K) ≠ 0 := by
    have : t.length ≠ 0 := by simpa using h0
    exact_mod_cast this
  have hw : wts K (meanW n t) = (List.range n).map fun i => (t.count i : K) / t.length := by
    rw [wts, meanW, List.map_map]
    apply List.map_congr_left
    intro i _
    simp only [Function.comp_apply, Rat.mkRat_eq_div]
    push_cast; rfl
  refine ⟨wts K (meanW n t), by simp [wts, meanW, hX], ?_, ?_, lincomb_mean h (by omega)⟩
  · rw [hw]
    intro a ha
    obtain ⟨i, _, rfl⟩ := List.mem_map.1 ha
    positivity
  · have := sum_count (K := K) n (fun _ => 1) t h
    rw [hw]
    simp only [mul_one, List.map_const', List.sum_replicate, nsmul_eq_mul] at this
    have e : ((List.range n).map fun i => (t.count i : K) / t.length) = (List.range n).map fun i => (t.count i : K) * (t.length : K)⁻¹ := by
      apply List.map_congr_left
      intro i _
      rw [div_eq_mul_inv]
    rw [e, List.sum_map_mul_right, this, mul_inv_cancel₀ hl]

/-- The cells `Ys` (with the functions `N` and the derivatives `dN`, of a class with the master cell `master`) are the parts of the cell `X` of the
same class. -/
structure PartsOf (N : List PE) (dN : List (List PE)) (master : List (V3 K)) (X : List (V3 K)) (Ys : List (List (V3 K))) : Prop where
  /-- each of them is the image of a part of the master cell, in the same orientation, the third direction kept -/
  place : ∃ A : Nat → Aff K, ∀ (k : Nat) (Y : List (V3 K)), Ys[k]? = some Y → 0 < (A k).det ∧
    ((A k).c.x = 0 ∧ (A k).c.y = 0 ∧ 0 < (A k).c.z) ∧ (∀ ξ, Hull master ξ → Hull master ((A k).app ξ)) ∧ (∀ ξ, formAt N Y ξ = formAt N X ((A k).app ξ)) ∧
    ∀ ξ, (tangentsAt dN Y ξ).a = (tangentsAt dN X ((A k).app ξ)).lin (A k).a ∧
      (tangentsAt dN Y ξ).b = (tangentsAt dN X ((A k).app ξ)).lin (A k).b ∧
      (tangentsAt dN Y ξ).c = (tangentsAt dN X ((A k).app ξ)).lin (A k).c
  /-- together they are the cell -/
  image : ∀ p, (∃ ξ, Hull master ξ ∧ formAt N X ξ = p) ↔ ∃ Y ∈ Ys, ∃ ξ, Hull master ξ ∧ formAt N Y ξ = p
  /-- they do not overlap, unless the cell itself does -/
  apart : (∀ ξ η, Hull master ξ → Hull master η → formAt N X ξ = formAt N X η → ξ = η) →
    ∀ (k k' : Nat) (Y Y' : List (V3 K)), Ys[k]? = some Y → Ys[k']? = some Y' → k ≠ k' →
      ∀ ξ η, OpenHull master ξ → OpenHull master η → formAt N Y ξ ≠ formAt N Y' η

/-- What is checked of a table of parts. -/
def partsCheck (N : List PE) (dN : List (List PE)) (lc lcS : List (V3 Int)) (ents : List (List Nat)) (path : List (List Nat))
    (m : List (V3 Int) → List Nat → Aff Int) : Bool :=
  (path.all fun t => t.length == lcS.length && t.all (fun q => decide (q < lc.length)) && pieceCheck lc lcS t (m lc t) &&
    decide ((m lc t).c.x = 0 ∧ (m lc t).c.y = 0 ∧ 0 < (m lc t).c.z) &&
    formCheck N N (t.map fun q => (straightW lcS.length ents).getD q []) (m lc t) &&
    tangentCheck dN (t.map fun q => (straightW lcS.length ents).getD q []) (m lc t)) &&
  decide (lc.take lcS.length = lcS) && (List.range ents.length).all (fun e => isMean lcS (ents.getD e []) (lc.getD (lcS.length + e) 0)) &&
  decide (lc.length = lcS.length + ents.length) && ents.all (fun t => t.all fun q => decide (q < lcS.length))

theorem det_one_pos : 0 < (Aff.one : Aff K).det := by simp [Aff.det, Aff.one, V3.det3]

theorem masterPts_range (lc : List (V3 Int)) (n : Nat) (i : Nat) (hi : i < n) :
    (masterPts K lc (List.range n)).getD i 0 = half (lc.getD i 0) := by
  rw [List.getD_eq_getElem?_getD, masterPts, List.getElem?_map, List.getElem?_range hi]; rfl

theorem parts_of {N : List PE} {dN : List (List PE)} {lc lcS : List (V3 Int)} {ents path : List (List Nat)}
    {m : List (V3 Int) → List Nat → Aff Int} (h : partsCheck N dN lc lcS ents path m = true)
    (tiles : Tiles K lc (List.range lcS.length) path lcS.length) {X : List (V3 K)} (hX : StraightCell lcS.length ents X) :
    PartsOf N dN (masterPts K lcS (List.range lcS.length)) X (path.map fun t => t.map fun q => X.getD q 0) := by
  simp only [partsCheck, Bool.and_eq_true, List.all_eq_true, beq_iff_eq, decide_eq_true_eq, List.mem_range] at h
  obtain ⟨⟨⟨⟨hp, htake⟩, hmean⟩, hlen⟩, hents⟩ := h
  set n := lcS.length with hn
  have hcorner : ∀ q, q < n → lc.getD q 0 = lcS.getD q 0 := by
    intro q hq
    rw [← htake, List.getD_eq_getElem?_getD, List.getD_eq_getElem?_getD, List.getElem?_take, if_pos hq]
  have hmaster : masterPts K lc (List.range n) = masterPts K lcS (List.range n) := by
    unfold masterPts
    apply List.map_congr_left
    intro q hq
    rw [hcorner q (List.mem_range.1 hq)]
  have hone : ∀ ids : List Nat, cellPts (Aff.one : Aff K) lc ids = masterPts K lc ids := by
    intro ids
    unfold cellPts masterPts
    apply List.map_congr_left
    intro q _
    rw [Aff.one_app]
  have hd1 : (Aff.one : Aff K).det ≠ 0 := ne_of_gt det_one_pos
  have hnode : ∀ q, q < lc.length → Hull (masterPts K lcS (List.range n)) (half (lc.getD q 0)) := by
    intro q hq
    have hml : (masterPts K lcS (List.range n)).length = n := by simp [masterPts]
    by_cases hqn : q < n
    · have := mean_hull (K := K) (t := [q]) (by simp) (by simpa using hqn) hml
      simp only [List.map_cons, List.map_nil] at this
      rw [masterPts_range lcS n q hqn, ← hcorner q hqn] at this
      have e : meanPts [(half (lc.getD q 0) : V3 K)] = half (lc.getD q 0) := by ext <;> simp [meanPts]
      rwa [e] at this
    · have he : q - n < ents.length := by omega
      have hm := hmean (q - n) he
      rw [show n + (q - n) = q by omega, getD_of_lt he] at hm
      have hne : ents[q - n] ≠ [] := by
        simp only [isMean, Bool.and_eq_true, decide_eq_true_eq, ne_eq] at hm
        exact hm.1.1.1
      have hin := hents _ (List.getElem_mem he)
      have := mean_hull (K := K) hne hin hml
      have e := meanPts_affine hm (Aff.one : Aff K)
      simp only [Aff.one_app] at e
      rw [← e]
      have e2 : (ents[q - n].map fun i => (masterPts K lcS (List.range n)).getD i 0) = ents[q - n].map fun i => (half (lcS.getD i 0) : V3 K) := by
        apply List.map_congr_left
        intro i hi
        exact masterPts_range lcS n i (hin i hi)
      rwa [e2] at this
  have hpiece : ∀ t ∈ path, masterPts K lc t = (masterPts K lcS (List.range n)).map (halfAff K (m lc t)).app ∧ 0 < (halfAff K (m lc t)).det := by
    intro t ht
    obtain ⟨⟨⟨⟨⟨h1, h2⟩, h3⟩, _⟩, _⟩, _⟩ := hp t ht
    obtain ⟨C, rfl, c1, c2⟩ := posPiece_map h3 (Aff.one : Aff K) det_one_pos
    have hcomp : ∀ ξ, (Aff.one.comp (⟨half (m lc t).o, half (m lc t).a, half (m lc t).b, half (m lc t).c⟩ : Aff K)).app ξ = (halfAff K (m lc t)).app ξ := by
      intro ξ
      rw [Aff.app_comp, Aff.one_app]; rfl
    refine ⟨?_, ?_⟩
    · unfold masterPts
      rw [List.map_map]
      apply List.ext_getElem
      · simp [h1]
      · intro i i1 i2
        have hi : i < t.length := by simpa using i1
        have := c2 i hi
        rw [Aff.one_app, hcomp, getD_of_lt hi] at this
        simpa using this
    · rw [Aff.det_comp] at c1
      have e1 : (Aff.one : Aff K).det = 1 := by simp [Aff.det, Aff.one, V3.det3]
      rw [e1, one_mul] at c1
      exact c1
  have hnodes := straight_nodes (K := K) hents hX
  have hXl : X.length = lc.length := by rw [hX.len, hlen]
  have hsub : ∀ t ∈ path, (t.map fun q => X.getD q 0) = (t.map fun q => (straightW n ents).getD q []).map fun w => lincomb (wts K w) X := by
    intro t ht
    obtain ⟨⟨⟨⟨⟨h1, h2⟩, _⟩, _⟩, _⟩, _⟩ := hp t ht
    rw [List.map_map]
    apply List.map_congr_left
    intro q hq
    have hql : q < X.length := by rw [hXl]; exact h2 q hq
    have hsl : (straightW n ents).length = X.length := by rw [hX.len]; simp [straightW]
    have hqs : q < (straightW n ents).length := by rw [hsl]; exact hql
    have e : X[q]? = ((straightW n ents).map fun w => lincomb (wts K w) X)[q]? := by rw [← hnodes]
    rw [List.getElem?_map, List.getElem?_eq_getElem hqs, Option.map_some] at e
    rw [List.getD_eq_getElem?_getD, e, Function.comp_apply, getD_of_lt hqs]; rfl
  have hform : ∀ t ∈ path, ∀ ξ, formAt N (t.map fun q => X.getD q 0) ξ = formAt N X ((halfAff K (m lc t)).app ξ) := by
    intro t ht ξ
    rw [hsub t ht]
    exact form_of_check (hp t ht).1.2 X ξ
  have hin : ∀ t ∈ path, ∀ ξ, Hull (masterPts K lcS (List.range n)) ξ → Hull (masterPts K lcS (List.range n)) ((halfAff K (m lc t)).app ξ) := by
    intro t ht ξ hξ
    have h1 := hull_map_of (halfAff K (m lc t)) hξ
    rw [← (hpiece t ht).1] at h1
    refine hull_of_hull h1 fun q hq => ?_
    obtain ⟨j, hj, rfl⟩ := List.mem_map.1 hq
    exact hnode j ((hp t ht).1.1.1.1.2 j hj)
  have hflat : ∀ t ∈ path, (halfAff K (m lc t)).c.x = 0 ∧ (halfAff K (m lc t)).c.y = 0 ∧ 0 < (halfAff K (m lc t)).c.z := by
    intro t ht
    obtain ⟨f1, f2, f3⟩ := (hp t ht).1.1.2
    have f3' : (0 : K) < ((m lc t).c.z : K) := by exact_mod_cast f3
    refine ⟨by simp [halfAff, half, f1], by simp [halfAff, half, f2], ?_⟩
    simp only [halfAff, half]
    linarith
  refine ⟨⟨fun k => halfAff K (m lc (path.getD k [])), ?_⟩, ?_, ?_⟩
  · intro k Y hY
    rw [List.getElem?_map] at hY
    obtain ⟨t, ht, rfl⟩ := Option.map_eq_some_iff.1 hY
    have htm := List.mem_of_getElem? ht
    have hg : path.getD k [] = t := by rw [List.getD_eq_getElem?_getD, ht]; rfl
    beta_reduce
    rw [hg]
    refine ⟨(hpiece t htm).2, hflat t htm, hin t htm, hform t htm, fun ξ => ?_⟩
    rw [hsub t htm]
    exact tangents_of_check (hp t htm).2 X ξ
  · intro p
    constructor
    · rintro ⟨ξ, hξ, rfl⟩
      obtain ⟨t, ht, h1⟩ := tiles.cover Aff.one hd1 ξ (by rw [hone, hmaster]; exact hξ)
      have htl : t.take n = t := by rw [← (hp t ht).1.1.1.1.1, List.take_length]
      rw [hone, htl, (hpiece t ht).1] at h1
      obtain ⟨η, rfl, h2⟩ := exists_of_hull_map _ h1
      exact ⟨_, List.mem_map_of_mem ht, η, h2, hform t ht η⟩
    · rintro ⟨Y, hY, ξ, hξ, rfl⟩
      obtain ⟨t, ht, rfl⟩ := List.mem_map.1 hY
      exact ⟨_, hin t ht ξ hξ, (hform t ht ξ).symm⟩
  · intro hinj k k' Y Y' hY hY' hk ξ η hξ hη he
    rw [List.getElem?_map] at hY hY'
    obtain ⟨t, ht, rfl⟩ := Option.map_eq_some_iff.1 hY
    obtain ⟨t', ht', rfl⟩ := Option.map_eq_some_iff.1 hY'
    have htm := List.mem_of_getElem? ht
    have htm' := List.mem_of_getElem? ht'
    rw [hform t htm, hform t' htm'] at he
    have e := hinj _ _ (hin t htm ξ (hull_of_open hξ)) (hin t' htm' η (hull_of_open hη)) he
    have o1 := openHull_map_of (halfAff K (m lc t)) hξ
    have o2 := openHull_map_of (halfAff K (m lc t')) hη
    rw [← (hpiece t htm).1] at o1
    rw [← (hpiece t' htm').1, ← e] at o2
    have tl : t.take n = t := by rw [← (hp t htm).1.1.1.1.1, List.take_length]
    have tl' : t'.take n = t' := by rw [← (hp t' htm').1.1.1.1.1, List.take_length]
    exact tiles.disj Aff.one hd1 k k' t t' ht ht' hk _ ⟨by rw [hone, tl]; exact o1, by rw [hone, tl']; exact o2⟩


/-! ## whole meshes -/

/-- A mesh `r` with points `c`, whose cells `i * P`, …, `i * P + P - 1` are the parts of cell `i` of the mesh `topo` with points `coords`. -/
structure RefinedForm (coords : List (V3 K)) (topo : Topo) (P : Nat) (N : List PE) (dN : List (List PE)) (master : List (V3 K))
    (c : List (V3 K)) (r : Topo) : Prop where
  cells : r.length = P * topo.length
  parts : ∀ (i : Nat) (cell : List Nat), topo[i]? = some cell → ∃ X Ys, gather? coords cell = some X ∧ Ys.length = P ∧
    (∀ k, k < P → ∃ row, r[i * P + k]? = some row ∧ gather? c row = Ys[k]?) ∧ PartsOf N dN master X Ys

theorem refine_form {N : List PE} {dN : List (List PE)} {lc lcS : List (V3 Int)} {ents path : List (List Nat)}
    {m : List (V3 Int) → List Nat → Aff Int} (h : partsCheck N dN lc lcS ents path m = true)
    (tiles : Tiles K lc (List.range lcS.length) path lcS.length) {coords : List (V3 K)} {topo : Topo} (hm : MeshOK coords topo lc.length)
    (hs : ∀ cell ∈ topo, ∀ X, gather? coords cell = some X → StraightCell lcS.length ents X) :
    ∃ r, transformTopology topo path lcS.length 0 = some r ∧
      RefinedForm coords topo path.length N dN (masterPts K lcS (List.range lcS.length)) coords r := by
  have hp := h
  simp only [partsCheck, Bool.and_eq_true, List.all_eq_true, beq_iff_eq, decide_eq_true_eq, List.mem_range] at hp
  have hp1 := hp.1.1.1.1
  have hok : PathOK topo path lcS.length := pathOK_of_width hm.len fun p hq => ⟨(hp1 p hq).1.1.1.1.1, (hp1 p hq).1.1.1.1.2⟩
  refine ⟨_, transformTopology_eq hok, length_transformed _ _ _, fun i cell hi => ?_⟩
  have hcell := List.mem_of_getElem? hi
  obtain ⟨X, g1, g2, g3⟩ := gather?_eq_some (a := coords) (inds := cell) (hm.lt cell hcell)
  refine ⟨X, _, g1, ?_, ?_, parts_of h tiles (hs cell hcell X g1)⟩
  · simp
  · intro k hk
    rw [transformed_row hk, hi, List.getElem?_eq_getElem hk]
    refine ⟨_, rfl, ?_⟩
    rw [List.getElem?_map, List.getElem?_eq_getElem hk, Option.map_some]
    have hpk := (hp1 _ (List.getElem_mem hk)).1.1.1.1.2
    have hcl := hm.len cell hcell
    rw [gather?, List.mapM_map]
    apply mapM_some
    intro q hq
    have hql : q < cell.length := by rw [hcl]; exact hpk q hq
    have := g3 q _ (List.getElem?_eq_getElem hql)
    have hxl : q < X.length := by omega
    rw [List.getElem?_eq_getElem hxl] at this
    rw [Function.comp_apply, getD_of_lt hql, getD_of_lt hxl, this]

/-- **C112** (orientation, solid cells): where the Jacobian of the cell is positive, those of its parts are. -/
theorem C112_jacobian_solid {N : List PE} {dN : List (List PE)} {master X : List (V3 K)} {Ys : List (List (V3 K))}
    (h : PartsOf N dN master X Ys) (hX : ∀ ξ, Hull master ξ → 0 < (tangentsAt dN X ξ).det) :
    ∀ Y ∈ Ys, ∀ ξ, Hull master ξ → 0 < (tangentsAt dN Y ξ).det := by
  obtain ⟨A, hA⟩ := h.place
  intro Y hY ξ hξ
  obtain ⟨k, hk⟩ := List.mem_iff_getElem?.1 hY
  obtain ⟨d, _, i, _, t⟩ := hA k Y hk
  obtain ⟨ta, tb, tc⟩ := t ξ
  rw [Aff.det, ta, tb, tc, Aff.det3_lin]
  exact mul_pos (hX _ (i ξ hξ)) d

/-- **C112** (orientation, plane cells): the same, seen from `n`. -/
theorem C112_jacobian_plane {N : List PE} {dN : List (List PE)} {master X : List (V3 K)} {Ys : List (List (V3 K))}
    (h : PartsOf N dN master X Ys) (h2 : ∀ row ∈ dN, row.length ≤ 2) (n : V3 K)
    (hX : ∀ ξ, Hull master ξ → 0 < V3.det3 (tangentsAt dN X ξ).a (tangentsAt dN X ξ).b n) :
    ∀ Y ∈ Ys, ∀ ξ, Hull master ξ → 0 < V3.det3 (tangentsAt dN Y ξ).a (tangentsAt dN Y ξ).b n := by
  obtain ⟨A, hA⟩ := h.place
  intro Y hY ξ hξ
  obtain ⟨k, hk⟩ := List.mem_iff_getElem?.1 hY
  obtain ⟨d, ⟨c1, c2, c3⟩, i, _, t⟩ := hA k Y hk
  obtain ⟨ta, tb, _⟩ := t ξ
  have hc : (tangentsAt dN X ((A k).app ξ)).c = 0 := by
    have : (dN.map fun row => (row.getD 2 (.c 0)).eval ((A k).app ξ)) = List.replicate dN.length (0 : K) := by
      rw [List.eq_replicate_iff]
      refine ⟨by simp, fun b hb => ?_⟩
      obtain ⟨row, hr, rfl⟩ := List.mem_map.1 hb
      have := h2 row hr
      rw [List.getD_eq_getElem?_getD, List.getElem?_eq_none this]
      simp [PE.eval]
    simp only [tangentsAt]
    rw [this, lincomb_zero]
  have hpos := hX _ (i ξ hξ)
  rw [ta, tb]
  generalize hT : tangentsAt dN X ((A k).app ξ) = T at hc hpos ⊢
  have e : V3.det3 (T.lin (A k).a) (T.lin (A k).b) n = ((A k).a.x * (A k).b.y - (A k).a.y * (A k).b.x) * V3.det3 T.a T.b n := by
    simp [Aff.lin, V3.det3, hc]; ring
  have hd : (A k).det = ((A k).a.x * (A k).b.y - (A k).a.y * (A k).b.x) * (A k).c.z := by
    simp [Aff.det, V3.det3, c1, c2]; ring
  rw [e]
  rw [hd] at d
  exact mul_pos ((pos_iff_pos_of_mul_pos d).2 c3) hpos


/-! ## C112: refinement -/

/-- A mesh of cells with straight sides. -/
def StraightMesh (n : Nat) (ents : List (List Nat)) (coords : List (V3 K)) (topo : Topo) : Prop :=
  ∀ cell ∈ topo, ∀ X, gather? coords cell = some X → StraightCell n ents X

theorem checkPartsT3 : partsCheck Shp.shpT3 Shp.dshpT3 lcT6 lcT3 entsT6 pathT6T3 triMap = true := by decide +kernel
theorem checkPartsQ4 : partsCheck Shp.shpQ4 Shp.dshpQ4 lcQ9 lcQ4 entsQ9 pathQ9Q4 quadMap = true := by decide +kernel
theorem checkPartsH8 : partsCheck Shp.shpH8 Shp.dshpH8 lcH27 lcH8 entsH27 pathH27H8 hexMap = true := by decide +kernel

/-- The functions of `W6`, as they are generated. -/
def genNW6 : List PE := (List.range (nodesQ lcW6).length).map (genShp (over8 inv8W6) (.c 1 :: Shp.baseW6.tail))

theorem checkPartsW6 : partsCheck genNW6 (genNW6.map fun f => [Dir.r, .s, .t].map fun d => f.diff d) lcW18 lcW6 entsW18 pathW18W6 wedgeMap = true := by
  decide +kernel

/-- **C112** `T6_to_T3` cuts triangles with straight sides into their parts. -/
theorem C112_T6_to_T3 (coords : List (V3 K)) (topo : Topo) (h : MeshOK coords topo 6) (hs : StraightMesh 3 entsT6 coords topo) :
    ∃ r, transformTopology topo pathT6T3 3 0 = some r ∧
      RefinedForm coords topo 4 Shp.shpT3 Shp.dshpT3 (masterPts K lcT3 [0, 1, 2]) coords r :=
  refine_form checkPartsT3 (C14_tiles_T6_to_T3 K) h hs

/-- **C112** `Q9_to_Q4` cuts quadrilaterals with straight sides into their parts. -/
theorem C112_Q9_to_Q4 (coords : List (V3 K)) (topo : Topo) (h : MeshOK coords topo 9) (hs : StraightMesh 4 entsQ9 coords topo) :
    ∃ r, transformTopology topo pathQ9Q4 4 0 = some r ∧
      RefinedForm coords topo 4 Shp.shpQ4 Shp.dshpQ4 (masterPts K lcQ4 [0, 1, 2, 3]) coords r :=
  refine_form checkPartsQ4 (C14_tiles_Q9_to_Q4 K) h hs

/-- **C112** `H27_to_H8` cuts hexahedra with straight sides into their parts. -/
theorem C112_H27_to_H8 (coords : List (V3 K)) (topo : Topo) (h : MeshOK coords topo 27) (hs : StraightMesh 8 entsH27 coords topo) :
    ∃ r, transformTopology topo pathH27H8 8 0 = some r ∧
      RefinedForm coords topo 8 Shp.shpH8 Shp.dshpH8 (masterPts K lcH8 [0, 1, 2, 3, 4, 5, 6, 7]) coords r :=
  refine_form checkPartsH8 (C14_tiles_H27_to_H8 K) h hs

/-- **C112** `W18_to_W6` cuts wedges with straight sides into their parts. -/
theorem C112_W18_to_W6 {inv : List (List ℚ) → Option (List (List ℚ))} (hinv : InvContract inv) {N : List PE} {dN : List (List PE)}
    (hN : generate inv (nodesQ lcW6) Shp.baseW6 [.r, .s, .t] = some (N, dN)) (coords : List (V3 K)) (topo : Topo)
    (h : MeshOK coords topo 18) (hs : StraightMesh 6 entsW18 coords topo) :
    ∃ r, transformTopology topo pathW18W6 6 0 = some r ∧
      RefinedForm coords topo 8 N dN (masterPts K lcW6 [0, 1, 2, 3, 4, 5]) coords r := by
  obtain ⟨rfl, rfl⟩ := generate_explicit hinv (by decide +kernel) inverseW6 hN
  exact refine_form checkPartsW6 (C14_tiles_W18_to_W6 K) h hs


/-! ## both -/

theorem lincomb_take (w : List K) (X : List (V3 K)) (n : Nat) (h : w.length ≤ n) : lincomb w (X.take n) = lincomb w X := by
  induction w generalizing X n with
  | nil => simp [lincomb]
  | cons a w ih =>
    cases X with
    | nil => simp
    | cons p X =>
      obtain ⟨n, rfl⟩ : ∃ k, n = k + 1 := ⟨n - 1, by simp at h; omega⟩
      rw [List.take_succ_cons, lincomb, lincomb, ih X n (by simpa using h)]

/-- Only the corners count. -/
theorem PartsOf.take {N : List PE} {dN : List (List PE)} {master X : List (V3 K)} {Ys : List (List (V3 K))}
    (h : PartsOf N dN master X Ys) {n : Nat} (hN : N.length ≤ n) (hd : dN.length ≤ n) : PartsOf N dN master (X.take n) Ys := by
  have e1 : formAt N (X.take n) = formAt N X := funext fun ξ => lincomb_take _ _ _ (by simpa using hN)
  have e2 : tangentsAt dN (X.take n) = tangentsAt dN X := by
    funext ξ
    unfold tangentsAt
    rw [lincomb_take _ _ _ (by simpa using hd), lincomb_take _ _ _ (by simpa using hd), lincomb_take _ _ _ (by simpa using hd)]
  obtain ⟨h1, h2, h3⟩ := h
  rw [← e1] at h2 h3
  refine ⟨?_, h2, h3⟩
  rw [e1, e2]
  exact h1

theorem elevated_refined {N : List PE} {dN : List (List PE)} {lc lcS : List (V3 Int)} {ents path : List (List Nat)}
    {m : List (V3 Int) → List Nat → Aff Int} (hc : partsCheck N dN lc lcS ents path m = true)
    (tiles : Tiles K lc (List.range lcS.length) path lcS.length) (hN : N.length ≤ lcS.length) (hd : dN.length ≤ lcS.length)
    {coords : List (V3 K)} {topo : Topo} {tables : List (List (List Nat))} {c : List (V3 K)} {t : Topo} (h : MeshOK coords topo lcS.length)
    (ht : ∀ tab ∈ tables, ∀ t ∈ tab, ∀ q ∈ t, q < lcS.length) (ok : ElevatedMesh coords topo lcS tables lc c t)
    (hl : lc.length = lcS.length + ents.length)
    (he : ents = tables.flatten ∨ ents = tables.flatten ++ [List.range lcS.length] ∧ Centred coords topo (lcS.length + tables.flatten.length) c t) :
    ∃ r, transformTopology t path lcS.length 0 = some r ∧
      RefinedForm coords topo path.length N dN (masterPts K lcS (List.range lcS.length)) c r := by
  have key := fun (i : Nat) (cell : List Nat) (hi : topo[i]? = some cell) =>
    elevated_straight h ht ok.elevated (fun r hr => by rw [← hl]; exact ok.width r hr) ok.inRange he hi
  have hrow : ∀ (i : Nat) (row : List Nat), t[i]? = some row → ∃ cell, topo[i]? = some cell := by
    intro i row hr
    have : i < topo.length := by rw [← ok.elevated.cells]; exact (List.getElem?_eq_some_iff.1 hr).1
    exact ⟨_, List.getElem?_eq_getElem this⟩
  have hmt : MeshOK c t lc.length := by
    refine ⟨ok.width, fun r hr x hx => ?_⟩
    obtain ⟨i, hi⟩ := List.mem_iff_getElem?.1 hr
    obtain ⟨j, hj⟩ := List.mem_iff_getElem?.1 hx
    exact ok.inRange i j x (by simp [nodeAt, hi, hj])
  obtain ⟨r, r1, r2⟩ := refine_form hc tiles hmt (by
    intro row hr X hX
    obtain ⟨i, hi⟩ := List.mem_iff_getElem?.1 hr
    obtain ⟨cell, hcell⟩ := hrow i row hi
    obtain ⟨row', X', k1, k2, _, k4⟩ := key i cell hcell
    rw [hi] at k1
    obtain rfl := Option.some.inj k1
    rw [hX] at k2
    obtain rfl := Option.some.inj k2
    exact k4)
  refine ⟨r, r1, by rw [r2.cells, ok.elevated.cells], fun i cell hi => ?_⟩
  obtain ⟨row, X, k1, k2, k3, _⟩ := key i cell hi
  obtain ⟨X', Ys, s1, s2, s3, s4⟩ := r2.parts i row k1
  rw [k2] at s1
  obtain rfl := Option.some.inj s1
  exact ⟨_, Ys, k3, s2, s3, s4.take hN hd⟩

/-- **C112** `T3_to_T6` and `T6_to_T3` one after the other refine a mesh of triangles. -/
theorem C112_refine_T3 (coords : List (V3 K)) (topo : Topo) (h : MeshOK coords topo 3) :
    ∃ c t r, t3ToT6 coords topo = some (c, t) ∧ transformTopology t pathT6T3 3 0 = some r ∧
      RefinedForm coords topo 4 Shp.shpT3 Shp.dshpT3 (masterPts K lcT3 [0, 1, 2]) c r := by
  obtain ⟨c, t, e, ok⟩ := C12_T3_to_T6 coords topo h
  obtain ⟨r, r1, r2⟩ := elevated_refined checkPartsT3
    (C14_tiles_T6_to_T3 K) (by decide) (by decide) h (by decide) ok rfl (Or.inl rfl)
  exact ⟨c, t, r, e, r1, r2⟩

/-- **C112** `Q4_to_Q9` and `Q9_to_Q4` one after the other refine a mesh of quadrilaterals. -/
theorem C112_refine_Q4 (coords : List (V3 K)) (topo : Topo) (h : MeshOK coords topo 4) :
    ∃ c t r, q4ToQ9 coords topo = some (c, t) ∧ transformTopology t pathQ9Q4 4 0 = some r ∧
      RefinedForm coords topo 4 Shp.shpQ4 Shp.dshpQ4 (masterPts K lcQ4 [0, 1, 2, 3]) c r := by
  obtain ⟨c, t, e, ok, okc⟩ := C12_Q4_to_Q9 coords topo h
  obtain ⟨r, r1, r2⟩ := elevated_refined checkPartsQ4
    (C14_tiles_Q9_to_Q4 K) (by decide) (by decide) h (by decide) ok rfl (Or.inr ⟨rfl, okc⟩)
  exact ⟨c, t, r, e, r1, r2⟩

/-- **C112** `H8_to_H27` and `H27_to_H8` one after the other refine a mesh of hexahedra. -/
theorem C112_refine_H8 (coords : List (V3 K)) (topo : Topo) (h : MeshOK coords topo 8) :
    ∃ c t r, h8ToH27 coords topo = some (c, t) ∧ transformTopology t pathH27H8 8 0 = some r ∧
      RefinedForm coords topo 8 Shp.shpH8 Shp.dshpH8 (masterPts K lcH8 [0, 1, 2, 3, 4, 5, 6, 7]) c r := by
  obtain ⟨c, t, e, ok, okc⟩ := C12_H8_to_H27 coords topo h
  obtain ⟨r, r1, r2⟩ := elevated_refined checkPartsH8
    (C14_tiles_H27_to_H8 K) (by decide) (by decide) h (by decide) ok rfl (Or.inr ⟨rfl, okc⟩)
  exact ⟨c, t, r, e, r1, r2⟩

/-- **C112** `W6_to_W18` and `W18_to_W6` one after the other refine a mesh of wedges. Missing: as in `C112_W6_to_W18_partial`. -/
theorem C112_refine_W6_partial {inv : List (List ℚ) → Option (List (List ℚ))} (hinv : InvContract inv) {N : List PE} {dN : List (List PE)}
    (hN : generate inv (nodesQ lcW6) Shp.baseW6 [.r, .s, .t] = some (N, dN)) (coords : List (V3 K)) (topo : Topo)
    (h : MeshOK coords topo 6) :
    ∃ c t r, w6ToW18Quads coords topo = some (c, t) ∧ transformTopology t pathW18W6 6 0 = some r ∧
      RefinedForm coords topo 8 N dN (masterPts K lcW6 [0, 1, 2, 3, 4, 5]) c r := by
  obtain ⟨rfl, rfl⟩ := generate_explicit hinv (by decide +kernel) inverseW6 hN
  obtain ⟨c, t, e, ok⟩ := C12_W6_to_W18_partial coords topo h
  obtain ⟨r, r1, r2⟩ := elevated_refined checkPartsW6
    (C14_tiles_W18_to_W6 K) (by decide +kernel) (by decide +kernel) h (by decide) ok rfl (Or.inl rfl)
  exact ⟨c, t, r, e, r1, r2⟩

end

/-! ## examples -/

/-- A distorted quadrilateral: not the affine image of a square. -/
example : MeshOK ([⟨0, 0, 0⟩, ⟨4, 0, 0⟩, ⟨3, 3, 1⟩, ⟨0, 1, 0⟩] : List (V3 ℚ)) [[0, 1, 2, 3]] 4 := ⟨by decide, by decide⟩

example : formAt Shp.shpQ4 ([⟨0, 0, 0⟩, ⟨4, 0, 0⟩, ⟨3, 3, 1⟩, ⟨0, 1, 0⟩] : List (V3 ℚ)) ⟨0, 0, 0⟩ = ⟨7 / 4, 1, 1 / 4⟩ := by decide +kernel

/-- A triangle with straight sides. -/
example : StraightCell 3 entsT6 ([⟨0, 0, 0⟩, ⟨4, 0, 0⟩, ⟨0, 2, 0⟩, ⟨2, 0, 0⟩, ⟨2, 1, 0⟩, ⟨0, 1, 0⟩] : List (V3 ℚ)) := by
  refine ⟨rfl, fun e t h => ?_⟩
  match e, h with
  | 0, h => obtain rfl := Option.some.inj h; decide +kernel
  | 1, h => obtain rfl := Option.some.inj h; decide +kernel
  | 2, h => obtain rfl := Option.some.inj h; decide +kernel
  | e + 3, h => simp [entsT6] at h

/-- The form of this triangle does not overlap, and is seen from above. -/
example : (∀ ξ η : V3 ℚ, Hull (masterPts ℚ lcT3 [0, 1, 2]) ξ → Hull (masterPts ℚ lcT3 [0, 1, 2]) η →
    formAt Shp.shpT3 [⟨0, 0, 0⟩, ⟨4, 0, 0⟩, ⟨0, 2, 0⟩] ξ = formAt Shp.shpT3 [⟨0, 0, 0⟩, ⟨4, 0, 0⟩, ⟨0, 2, 0⟩] η → ξ = η) ∧
    ∀ ξ : V3 ℚ, 0 < V3.det3 (tangentsAt Shp.dshpT3 [⟨0, 0, 0⟩, ⟨4, 0, 0⟩, ⟨0, 2, 0⟩] ξ).a
      (tangentsAt Shp.dshpT3 [⟨0, 0, 0⟩, ⟨4, 0, 0⟩, ⟨0, 2, 0⟩] ξ).b ⟨0, 0, 1⟩ := by
  constructor
  · intro ξ η hξ hη h
    have z : ∀ ξ : V3 ℚ, Hull (masterPts ℚ lcT3 [0, 1, 2]) ξ → ξ.z = 0 := by
      rintro ξ ⟨w, w1, _, _, rfl⟩
      match w, w1 with
      | [a, b, c], _ => simp [masterPts, lcT3, lincomb, half]
    have hx := congrArg V3.x h
    have hy := congrArg V3.y h
    simp [formAt, Shp.shpT3, lincomb, PE.eval, PE.eval_sub] at hx hy
    exact V3.ext hx hy (by rw [z ξ hξ, z η hη])
  · intro ξ
    have e0 : (0.0 : PE).eval ξ = ((0.0 : ℚ) : ℚ) := rfl
    have e1 : (1.0 : PE).eval ξ = ((1.0 : ℚ) : ℚ) := rfl
    norm_num [e0, e1, tangentsAt, Shp.dshpT3, lincomb, PE.eval, V3.det3]

end PM
