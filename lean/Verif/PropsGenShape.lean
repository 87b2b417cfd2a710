import Verif.GenShape

/-!
# C36: generated shape functions
-/

namespace PM

open Shp

/-! ## specification -/

/-- `C` is a two-sided inverse of the `n` by `n` table `M`. -/
structure IsInverse (n : Nat) (M C : List (List ℚ)) : Prop where
  right : ∀ i < n, ∀ j < n, ((List.range n).map fun k => ent M i k * ent C k j).sum = if i = j then 1 else 0
  left : ∀ i < n, ∀ j < n, ((List.range n).map fun k => ent C i k * ent M k j).sum = if i = j then 1 else 0

/-- What is assumed of `numpy.linalg.inv`: it returns inverses, and it succeeds if there is one. -/
structure InvContract (inv : List (List ℚ) → Option (List (List ℚ))) : Prop where
  sound : ∀ M C, inv M = some C → IsInverse M.length M C
  complete : ∀ M C, IsInverse M.length M C → ∃ C', inv M = some C'

/-! ## lemmas -/

theorem sum_range_swap {K : Type} [AddCommMonoid K] (n m : Nat) (f : Nat → Nat → K) :
    ((List.range n).map fun i => ((List.range m).map fun k => f i k).sum).sum =
      ((List.range m).map fun k => ((List.range n).map fun i => f i k).sum).sum := by
  induction n with
  | zero => simp
  | succ n ih =>
    rw [List.range_succ, List.map_append, List.sum_append, ih]
    simp only [List.map_append, List.sum_append, List.map_cons, List.map_nil, List.sum_cons, List.sum_nil, add_zero]
    rw [← List.sum_map_add]

theorem sum_range_ite {K : Type} [Semiring K] (n j : Nat) (hj : j < n) (f : Nat → K) :
    ((List.range n).map fun k => f k * (if k = j then (1 : K) else 0)).sum = f j := by
  induction n with
  | zero => omega
  | succ n ih =>
    rw [List.range_succ, List.map_append, List.sum_append]
    by_cases h : j = n
    · subst h
      have : ((List.range j).map fun k => f k * (if k = j then (1 : K) else 0)).sum = 0 := by
        rw [List.sum_eq_zero]
        intro x hx
        obtain ⟨k, hk, rfl⟩ := List.mem_map.1 hx
        rw [if_neg (by have := List.mem_range.1 hk; omega), mul_zero]
      rw [this]; simp
    · rw [ih (by omega)]
      simp [show n ≠ j from fun h' => h h'.symm]

/-- An inverse is unique. -/
theorem IsInverse.unique {n : Nat} {M C C' : List (List ℚ)} (h : IsInverse n M C) (h' : IsInverse n M C') {i j : Nat}
    (hi : i < n) (hj : j < n) : ent C i j = ent C' i j := by
  have e1 : ((List.range n).map fun k => ent C i k * ((List.range n).map fun l => ent M k l * ent C' l j).sum).sum =
      ent C i j := by
    rw [← sum_range_ite n j hj fun k => ent C i k]
    congr 1
    apply List.map_congr_left
    intro k hk
    rw [h'.right k (List.mem_range.1 hk) j hj]
  have e2 : ((List.range n).map fun l => ((List.range n).map fun k => ent C i k * ent M k l).sum * ent C' l j).sum =
      ent C' i j := by
    have : ∀ l ∈ List.range n, ((List.range n).map fun k => ent C i k * ent M k l).sum * ent C' l j =
        ent C' l j * (if l = i then (1 : ℚ) else 0) := by
      intro l hl
      rw [h.left i hi l (List.mem_range.1 hl), mul_comm]
      congr 1
      by_cases hil : i = l
      · rw [if_pos hil, if_pos hil.symm]
      · rw [if_neg hil, if_neg (fun h => hil h.symm)]
    rw [List.map_congr_left this]
    exact sum_range_ite n i hi fun l => ent C' l j
  rw [← e1, ← e2]
  have e3 : ∀ k, ent C i k * ((List.range n).map fun l => ent M k l * ent C' l j).sum =
      ((List.range n).map fun l => ent C i k * ent M k l * ent C' l j).sum := by
    intro k
    rw [← List.sum_map_mul_left]
    congr 1
    apply List.map_congr_left
    intro l _; ring
  have e4 : ∀ l, ((List.range n).map fun k => ent C i k * ent M k l).sum * ent C' l j =
      ((List.range n).map fun k => ent C i k * ent M k l * ent C' l j).sum := by
    intro l
    rw [← List.sum_map_mul_right]
  simp only [e3, e4]
  exact sum_range_swap n n fun k l => ent C i k * ent M k l * ent C' l j

/-- The base with its first member. -/
def baseOf (monoms : List PE) (k : Nat) : PE := ((PE.c 1) :: monoms.tail).getD k (.c 0)

theorem ent_genM {nodes : List (V3 ℚ)} {monoms : List PE} {i k : Nat} {p : V3 ℚ} (hp : nodes[i]? = some p)
    (hk : k < monoms.length) : ent (genM nodes monoms) i k = (baseOf monoms k).evalQ p := by
  simp only [ent, genM, baseOf, List.getD_eq_getElem?_getD, List.getElem?_map, hp, Option.map_some, Option.getD_some]
  cases k with
  | zero => simp [PE.evalQ]
  | succ k =>
    have hk' : k < monoms.tail.length := by rw [List.length_tail]; omega
    simp only [List.getElem?_cons_succ, List.getElem?_map, List.getElem?_eq_getElem hk', Option.map_some, Option.getD_some]

theorem eval_genShp {K : Type} [Field K] (C : List (List ℚ)) (monoms : List PE) (h : monoms ≠ []) (i : Nat) (x : V3 K) :
    (genShp C (.c 1 :: monoms.tail) i).eval x =
      ((List.range monoms.length).map fun k => (ent C k i : K) * (baseOf monoms k).eval x).sum := by
  have hl : (PE.c 1 :: monoms.tail).length = monoms.length := by
    cases monoms with
    | nil => exact absurd rfl h
    | cons a l => simp
  rw [genShp, eval_peSum, List.map_map, hl]
  rfl

theorem cast_sum_range {K : Type} [Field K] [CharZero K] (n : Nat) (f : Nat → ℚ) :
    ((((List.range n).map f).sum : ℚ) : K) = ((List.range n).map fun k => (f k : K)).sum := by
  induction n with
  | zero => simp
  | succ n ih => simp [List.range_succ, ih]

/-! ## C36 -/

/-- The values of generated shape functions (`generate`) as polynomials of the base. -/
theorem generate_some {inv : List (List ℚ) → Option (List (List ℚ))} (hinv : InvContract inv) {nodes : List (V3 ℚ)}
    {monoms : List PE} {dirs : List Dir} {N : List PE} {dN : List (List PE)}
    (h : generate inv nodes monoms dirs = some (N, dN)) :
    monoms.length = nodes.length ∧ (∃ C, inv (genM nodes monoms) = some C ∧ IsInverse nodes.length (genM nodes monoms) C ∧
      N = (List.range nodes.length).map (genShp C (.c 1 :: monoms.tail))) ∧
      dN = N.map fun f => dirs.map fun d => f.diff d := by
  rw [generate] at h
  by_cases hl : monoms.length ≠ nodes.length
  · rw [if_pos hl] at h; cases h
  · rw [if_neg hl] at h
    obtain ⟨C, hC, he⟩ := Option.map_eq_some_iff.1 h
    simp only [Prod.mk.injEq] at he
    obtain ⟨rfl, rfl⟩ := he
    have := hinv.sound _ _ hC
    rw [show (genM nodes monoms).length = nodes.length by simp [genM]] at this
    exact ⟨by omega, ⟨C, hC, this, rfl⟩, rfl⟩

/-- **C36** whenever the generation succeeds: one function per node, each is one at its own node and zero at the
others. -/
theorem C36_kronecker {inv : List (List ℚ) → Option (List (List ℚ))} (hinv : InvContract inv) {nodes : List (V3 ℚ)}
    {monoms : List PE} {dirs : List Dir} {N : List PE} {dN : List (List PE)} (hne : monoms ≠ [])
    (h : generate inv nodes monoms dirs = some (N, dN)) {K : Type} [Field K] [CharZero K] :
    N.length = nodes.length ∧ ∀ (i j : Nat) (e : PE) (p : V3 ℚ), N[i]? = some e → nodes[j]? = some p →
      e.eval (⟨(p.x : K), (p.y : K), (p.z : K)⟩ : V3 K) = if i = j then 1 else 0 := by
  obtain ⟨hl, ⟨C, hC, hI, rfl⟩, -⟩ := generate_some hinv h
  refine ⟨by simp, ?_⟩
  intro i j e p he hp
  have hi : i < nodes.length := by
    have := (List.getElem?_eq_some_iff.1 he).1
    simpa using this
  have hj : j < nodes.length := (List.getElem?_eq_some_iff.1 hp).1
  rw [List.getElem?_map, List.getElem?_range hi] at he
  cases Option.some.inj he
  have h1 := hI.right j hj i hi
  rw [eval_genShp C monoms hne, hl]
  have h2 : ∀ k ∈ List.range nodes.length, (ent C k i : K) * (baseOf monoms k).eval (⟨(p.x : K), (p.y : K), (p.z : K)⟩ : V3 K) =
      ((ent (genM nodes monoms) j k * ent C k i : ℚ) : K) := by
    intro k hk
    rw [ent_genM hp (by rw [hl]; exact List.mem_range.1 hk), PE.eval_cast, Rat.cast_mul, mul_comm]
  rw [List.map_congr_left h2, ← cast_sum_range, h1]
  by_cases hij : i = j
  · rw [if_pos hij, if_pos hij.symm]; simp
  · rw [if_neg hij, if_neg (fun h => hij h.symm)]; simp

/-- **C36** whenever the generation succeeds: every polynomial of the base (any coefficients `a`) is reproduced
everywhere from its values at the nodes; in particular the functions sum to one. -/
theorem C36_reproduces {inv : List (List ℚ) → Option (List (List ℚ))} (hinv : InvContract inv) {nodes : List (V3 ℚ)}
    {monoms : List PE} {dirs : List Dir} {N : List PE} {dN : List (List PE)} (h1 : monoms.head? = some (.c 1))
    (h : generate inv nodes monoms dirs = some (N, dN)) {K : Type} [Field K] [CharZero K] (a : Nat → K) (x : V3 K) :
    let poly := fun y : V3 K => (monoms.zipIdx.map fun m => a m.2 * m.1.eval y).sum
    ((N.zip nodes).map fun q => q.1.eval x * poly ⟨(q.2.x : K), (q.2.y : K), (q.2.z : K)⟩).sum = poly x ∧
      (N.map fun e => e.eval x).sum = 1 := by
  intro poly
  have hne : monoms ≠ [] := by rintro rfl; simp at h1
  have hb : ∀ k, baseOf monoms k = monoms.getD k (.c 0) := by
    intro k
    cases monoms with
    | nil => simp at h1
    | cons m ms =>
      simp at h1
      subst h1
      rfl
  have hpoly : ∀ y : V3 K, poly y = ((List.range monoms.length).map fun k => a k * (baseOf monoms k).eval y).sum := by
    intro y
    have : monoms.zipIdx = (List.range monoms.length).map fun k => (monoms.getD k (.c 0), k) := by
      apply List.ext_getElem
      · simp
      · intro i h1 h2
        simp at h1
        simp [h1]
    change (monoms.zipIdx.map _).sum = _
    rw [this, List.map_map]
    congr 1
    apply List.map_congr_left
    intro k _
    simp only [Function.comp_apply, hb]
  obtain ⟨hl, ⟨C, hC, hI, rfl⟩, -⟩ := generate_some hinv h
  set n := nodes.length with hn
  have hzip : ((List.range n).map (genShp C (.c 1 :: monoms.tail))).zip nodes =
      (List.range n).map fun i => (genShp C (.c 1 :: monoms.tail) i, nodes.getD i ⟨0, 0, 0⟩) := by
    apply List.ext_getElem
    · simp [hn]
    · intro i h1 h2
      simp at h1
      simp [h1]
  -- one member of the base
  have key : ∀ l < n, ((List.range n).map fun i => (genShp C (.c 1 :: monoms.tail) i).eval x *
      ((ent (genM nodes monoms) i l : ℚ) : K)).sum = (baseOf monoms l).eval x := by
    intro l hln
    have e1 : ∀ i ∈ List.range n, (genShp C (.c 1 :: monoms.tail) i).eval x * ((ent (genM nodes monoms) i l : ℚ) : K) =
        ((List.range n).map fun k => (baseOf monoms k).eval x * ((ent C k i * ent (genM nodes monoms) i l : ℚ) : K)).sum := by
      intro i _
      rw [eval_genShp C monoms hne, hl, ← List.sum_map_mul_right]
      congr 1
      apply List.map_congr_left
      intro k _
      rw [Rat.cast_mul]; ring
    rw [List.map_congr_left e1, sum_range_swap]
    have e2 : ∀ k ∈ List.range n, ((List.range n).map fun i => (baseOf monoms k).eval x *
        ((ent C k i * ent (genM nodes monoms) i l : ℚ) : K)).sum = (baseOf monoms k).eval x * (if k = l then (1 : K) else 0) := by
      intro k hk
      rw [List.sum_map_mul_left, ← cast_sum_range, hI.left k (List.mem_range.1 hk) l hln]
      split <;> simp
    rw [List.map_congr_left e2]
    exact sum_range_ite n l hln fun k => (baseOf monoms k).eval x
  have hnodes : ∀ i < n, nodes[i]? = some (nodes.getD i ⟨0, 0, 0⟩) := by
    intro i hi
    rw [List.getD_eq_getElem?_getD, List.getElem?_eq_getElem hi]; rfl
  constructor
  · rw [hzip, List.map_map]
    have e3 : ∀ i ∈ List.range n, ((fun q : PE × V3 ℚ => q.1.eval x * poly ⟨(q.2.x : K), (q.2.y : K), (q.2.z : K)⟩) ∘
        fun i => (genShp C (.c 1 :: monoms.tail) i, nodes.getD i ⟨0, 0, 0⟩)) i =
        ((List.range n).map fun k => a k * ((genShp C (.c 1 :: monoms.tail) i).eval x *
          ((ent (genM nodes monoms) i k : ℚ) : K))).sum := by
      intro i hi
      simp only [Function.comp_apply]
      rw [hpoly, hl, ← List.sum_map_mul_left]
      congr 1
      apply List.map_congr_left
      intro k hk
      rw [ent_genM (hnodes i (List.mem_range.1 hi)) (by rw [hl]; exact List.mem_range.1 hk), ← PE.eval_cast]
      ring
    rw [List.map_congr_left e3, sum_range_swap, hpoly, hl]
    congr 1
    apply List.map_congr_left
    intro k hk
    rw [List.sum_map_mul_left, key k (List.mem_range.1 hk)]
  · have h0 : 0 < n := by
      rw [← hl]; exact List.length_pos_iff.2 hne
    have := key 0 h0
    rw [List.map_map]
    have e4 : (baseOf monoms 0).eval x = 1 := by simp [baseOf, PE.eval]
    rw [← e4, ← this]
    congr 1
    apply List.map_congr_left
    intro i hi
    rw [ent_genM (hnodes i (List.mem_range.1 hi)) (by rw [hl]; exact h0)]
    simp [baseOf, PE.evalQ]

/-- **C36** the generated derivatives are the partial derivatives. -/
theorem C36_derivatives {inv : List (List ℚ) → Option (List (List ℚ))} (hinv : InvContract inv) {nodes : List (V3 ℚ)}
    {monoms : List PE} {dirs : List Dir} {N : List PE} {dN : List (List PE)}
    (h : generate inv nodes monoms dirs = some (N, dN)) :
    dN.length = N.length ∧ ∀ (i k : Nat) (e D : PE) (row : List PE) (d : Dir), N[i]? = some e → dN[i]? = some row →
      row[k]? = some D → dirs[k]? = some d → ∀ x : V3 ℝ, IsPartial (fun y => e.eval y) d x (D.eval x) := by
  obtain ⟨-, -, rfl⟩ := generate_some hinv h
  refine ⟨by simp, ?_⟩
  intro i k e D row d he hrow hD hd x
  rw [List.getElem?_map, he] at hrow
  cases Option.some.inj hrow
  rw [List.getElem?_map, hd] at hD
  cases Option.some.inj hD
  exact PE.hasDerivAt e d x

/-! ### the cells of the library -/

/-- A table of inverses from integers. -/
def over8 (T : List (List Int)) : List (List ℚ) := T.map fun row => row.map fun v => mkRat v 8

/-- A row times a column. -/
def rowCol (M C : List (List ℚ)) (n i j : Nat) : ℚ := ((List.range n).map fun k => ent M i k * ent C k j).sum

/-- The check of `IsInverse`. -/
def invCheck (n : Nat) (M C : List (List ℚ)) : Bool :=
  (List.range n).all fun i => (List.range n).all fun j =>
    rowCol M C n i j == (if i == j then 1 else 0) && rowCol C M n i j == (if i == j then 1 else 0)

theorem isInverse_of_check {n : Nat} {M C : List (List ℚ)} (h : invCheck n M C = true) : IsInverse n M C := by
  simp only [invCheck, List.all_eq_true, List.mem_range, Bool.and_eq_true, beq_iff_eq] at h
  exact ⟨fun i hi j hj => (h i hi j hj).1, fun i hi j hj => (h i hi j hj).2⟩

theorem generate_of_inverse {inv : List (List ℚ) → Option (List (List ℚ))} (hinv : InvContract inv) {nodes : List (V3 ℚ)}
    {monoms : List PE} (dirs : List Dir) {C : List (List ℚ)} (hl : monoms.length = nodes.length)
    (h : IsInverse nodes.length (genM nodes monoms) C) :
    ∃ N dN, generate inv nodes monoms dirs = some (N, dN) := by
  obtain ⟨C', hC'⟩ := hinv.complete (genM nodes monoms) C (by
    rw [show (genM nodes monoms).length = nodes.length by simp [genM]]; exact h)
  rw [generate, if_neg (by omega), hC']
  exact ⟨_, _, rfl⟩

/-- The inverse of the matrix of monomials of L2, times 8. -/
def inv8L2 : List (List Int) := [
  [4, 4],
  [-4, 4]]

/-- The inverse of the matrix of monomials of L3, times 8. -/
def inv8L3 : List (List Int) := [
  [0, 8, 0],
  [-4, 0, 4],
  [4, -8, 4]]

/-- The inverse of the matrix of monomials of T3, times 8. -/
def inv8T3 : List (List Int) := [
  [8, 0, 0],
  [-8, 8, 0],
  [-8, 0, 8]]

/-- The inverse of the matrix of monomials of T6, times 8. -/
def inv8T6 : List (List Int) := [
  [8, 0, 0, 0, 0, 0],
  [-24, -8, 0, 32, 0, 0],
  [-24, 0, -8, 0, 0, 32],
  [16, 16, 0, -32, 0, 0],
  [16, 0, 16, 0, 0, -32],
  [32, 0, 0, -32, 32, -32]]

/-- The inverse of the matrix of monomials of Q4, times 8. -/
def inv8Q4 : List (List Int) := [
  [2, 2, 2, 2],
  [-2, 2, 2, -2],
  [-2, -2, 2, 2],
  [2, -2, 2, -2]]

/-- The inverse of the matrix of monomials of Q9, times 8. -/
def inv8Q9 : List (List Int) := [
  [0, 0, 0, 0, 0, 0, 0, 0, 8],
  [0, 0, 0, 0, 0, 4, 0, -4, 0],
  [0, 0, 0, 0, -4, 0, 4, 0, 0],
  [2, -2, 2, -2, 0, 0, 0, 0, 0],
  [0, 0, 0, 0, 0, 4, 0, 4, -8],
  [0, 0, 0, 0, 4, 0, 4, 0, -8],
  [-2, 2, 2, -2, 0, -4, 0, 4, 0],
  [-2, -2, 2, 2, 4, 0, -4, 0, 0],
  [2, 2, 2, 2, -4, -4, -4, -4, 8]]

/-- The inverse of the matrix of monomials of TET10, times 8. -/
def inv8TET10 : List (List Int) := [
  [8, 0, 0, 0, 0, 0, 0, 0, 0, 0],
  [-24, -8, 0, 0, 32, 0, 0, 0, 0, 0],
  [-24, 0, -8, 0, 0, 0, 32, 0, 0, 0],
  [-24, 0, 0, -8, 0, 0, 0, 32, 0, 0],
  [32, 0, 0, 0, -32, 32, -32, 0, 0, 0],
  [32, 0, 0, 0, -32, 0, 0, -32, 32, 0],
  [32, 0, 0, 0, 0, 0, -32, -32, 0, 32],
  [16, 16, 0, 0, -32, 0, 0, 0, 0, 0],
  [16, 0, 16, 0, 0, 0, -32, 0, 0, 0],
  [16, 0, 0, 16, 0, 0, 0, -32, 0, 0]]

/-- The inverse of the matrix of monomials of H8, times 8. -/
def inv8H8 : List (List Int) := [
  [1, 1, 1, 1, 1, 1, 1, 1],
  [-1, 1, 1, -1, -1, 1, 1, -1],
  [-1, -1, 1, 1, -1, -1, 1, 1],
  [-1, -1, -1, -1, 1, 1, 1, 1],
  [1, -1, 1, -1, 1, -1, 1, -1],
  [1, -1, -1, 1, -1, 1, 1, -1],
  [1, 1, -1, -1, -1, -1, 1, 1],
  [-1, 1, -1, 1, 1, -1, 1, -1]]

/-- The inverse of the matrix of monomials of H27, times 8. -/
def inv8H27 : List (List Int) := [
  [0, 0, 0, 0, 0, 0, 0, 0, 0, 0, 0, 0, 0, 0, 0, 0, 0, 0, 0, 0, 0, 0, 0, 0, 0, 0, 8],
  [0, 0, 0, 0, 0, 0, 0, 0, 0, 0, 0, 0, 0, 0, 0, 0, 0, 0, 0, 0, -4, 4, 0, 0, 0, 0, 0],
  [0, 0, 0, 0, 0, 0, 0, 0, 0, 0, 0, 0, 0, 0, 0, 0, 0, 0, 0, 0, 0, 0, -4, 4, 0, 0, 0],
  [0, 0, 0, 0, 0, 0, 0, 0, 0, 0, 0, 0, 0, 0, 0, 0, 0, 0, 0, 0, 0, 0, 0, 0, -4, 4, 0],
  [0, 0, 0, 0, 0, 0, 0, 0, 2, 0, -2, 0, -2, 0, 2, 0, 0, 0, 0, 0, 0, 0, 0, 0, 0, 0, 0],
  [0, 0, 0, 0, 0, 0, 0, 0, 0, -2, 0, 2, 0, 2, 0, -2, 0, 0, 0, 0, 0, 0, 0, 0, 0, 0, 0],
  [0, 0, 0, 0, 0, 0, 0, 0, 0, 0, 0, 0, 0, 0, 0, 0, 2, -2, 2, -2, 0, 0, 0, 0, 0, 0, 0],
  [-1, 1, -1, 1, 1, -1, 1, -1, 0, 0, 0, 0, 0, 0, 0, 0, 0, 0, 0, 0, 0, 0, 0, 0, 0, 0, 0],
  [0, 0, 0, 0, 0, 0, 0, 0, 0, 0, 0, 0, 0, 0, 0, 0, 0, 0, 0, 0, 4, 4, 0, 0, 0, 0, -8],
  [0, 0, 0, 0, 0, 0, 0, 0, 0, 0, 0, 0, 0, 0, 0, 0, 0, 0, 0, 0, 0, 0, 4, 4, 0, 0, -8],
  [0, 0, 0, 0, 0, 0, 0, 0, 0, 0, 0, 0, 0, 0, 0, 0, 0, 0, 0, 0, 0, 0, 0, 0, 4, 4, -8],
  [0, 0, 0, 0, 0, 0, 0, 0, 0, 0, 0, 0, 0, 0, 0, 0, -2, -2, 2, 2, 0, 0, 4, -4, 0, 0, 0],
  [0, 0, 0, 0, 0, 0, 0, 0, 0, 0, 0, 0, 0, 0, 0, 0, -2, 2, 2, -2, 4, -4, 0, 0, 0, 0, 0],
  [0, 0, 0, 0, 0, 0, 0, 0, 0, 2, 0, -2, 0, 2, 0, -2, 0, 0, 0, 0, 4, -4, 0, 0, 0, 0, 0],
  [0, 0, 0, 0, 0, 0, 0, 0, 0, -2, 0, -2, 0, 2, 0, 2, 0, 0, 0, 0, 0, 0, 0, 0, 4, -4, 0],
  [0, 0, 0, 0, 0, 0, 0, 0, -2, 0, -2, 0, 2, 0, 2, 0, 0, 0, 0, 0, 0, 0, 0, 0, 4, -4, 0],
  [0, 0, 0, 0, 0, 0, 0, 0, -2, 0, 2, 0, -2, 0, 2, 0, 0, 0, 0, 0, 0, 0, 4, -4, 0, 0, 0],
  [1, 1, -1, -1, -1, -1, 1, 1, -2, 0, 2, 0, 2, 0, -2, 0, 0, 0, 0, 0, 0, 0, 0, 0, 0, 0, 0],
  [1, -1, -1, 1, -1, 1, 1, -1, 0, 2, 0, -2, 0, -2, 0, 2, 0, 0, 0, 0, 0, 0, 0, 0, 0, 0, 0],
  [1, -1, 1, -1, 1, -1, 1, -1, 0, 0, 0, 0, 0, 0, 0, 0, -2, 2, -2, 2, 0, 0, 0, 0, 0, 0, 0],
  [0, 0, 0, 0, 0, 0, 0, 0, 0, 0, 0, 0, 0, 0, 0, 0, 2, 2, 2, 2, -4, -4, -4, -4, 0, 0, 8],
  [0, 0, 0, 0, 0, 0, 0, 0, 2, 0, 2, 0, 2, 0, 2, 0, 0, 0, 0, 0, 0, 0, -4, -4, -4, -4, 8],
  [0, 0, 0, 0, 0, 0, 0, 0, 0, 2, 0, 2, 0, 2, 0, 2, 0, 0, 0, 0, -4, -4, 0, 0, -4, -4, 8],
  [1, 1, 1, 1, 1, 1, 1, 1, -2, -2, -2, -2, -2, -2, -2, -2, -2, -2, -2, -2, 4, 4, 4, 4, 4, 4, -8],
  [-1, -1, -1, -1, 1, 1, 1, 1, 2, 2, 2, 2, -2, -2, -2, -2, 0, 0, 0, 0, 0, 0, 0, 0, -4, 4, 0],
  [-1, -1, 1, 1, -1, -1, 1, 1, 2, 0, -2, 0, 2, 0, -2, 0, 2, 2, -2, -2, 0, 0, -4, 4, 0, 0, 0],
  [-1, 1, 1, -1, -1, 1, 1, -1, 0, -2, 0, 2, 0, -2, 0, 2, 2, -2, -2, 2, -4, 4, 0, 0, 0, 0, 0]]

/-- The inverse of the matrix of monomials of W6, times 8. -/
def inv8W6 : List (List Int) := [
  [4, 0, 0, 4, 0, 0],
  [-4, 4, 0, -4, 4, 0],
  [-4, 0, 4, -4, 0, 4],
  [-4, 0, 0, 4, 0, 0],
  [4, -4, 0, -4, 4, 0],
  [4, 0, -4, -4, 0, 4]]

/-- The inverse of the matrix of monomials of W18, times 8. -/
def inv8W18 : List (List Int) := [
  [0, 0, 0, 0, 0, 0, 0, 0, 0, 0, 0, 0, 8, 0, 0, 0, 0, 0],
  [0, 0, 0, 0, 0, 0, 0, 0, 0, 0, 0, 0, -24, -8, 0, 32, 0, 0],
  [0, 0, 0, 0, 0, 0, 0, 0, 0, 0, 0, 0, -24, 0, -8, 0, 0, 32],
  [0, 0, 0, 0, 0, 0, 0, 0, 0, 0, 0, 0, 16, 16, 0, -32, 0, 0],
  [0, 0, 0, 0, 0, 0, 0, 0, 0, 0, 0, 0, 16, 0, 16, 0, 0, -32],
  [0, 0, 0, 0, 0, 0, 0, 0, 0, 0, 0, 0, 32, 0, 0, -32, 32, -32],
  [-4, 0, 0, 4, 0, 0, 0, 0, 0, 0, 0, 0, 0, 0, 0, 0, 0, 0],
  [12, 4, 0, -12, -4, 0, -16, 0, 0, 16, 0, 0, 0, 0, 0, 0, 0, 0],
  [12, 0, 4, -12, 0, -4, 0, 0, -16, 0, 0, 16, 0, 0, 0, 0, 0, 0],
  [-8, -8, 0, 8, 8, 0, 16, 0, 0, -16, 0, 0, 0, 0, 0, 0, 0, 0],
  [-8, 0, -8, 8, 0, 8, 0, 0, 16, 0, 0, -16, 0, 0, 0, 0, 0, 0],
  [-16, 0, 0, 16, 0, 0, 16, -16, 16, -16, 16, -16, 0, 0, 0, 0, 0, 0],
  [4, 0, 0, 4, 0, 0, 0, 0, 0, 0, 0, 0, -8, 0, 0, 0, 0, 0],
  [-12, -4, 0, -12, -4, 0, 16, 0, 0, 16, 0, 0, 24, 8, 0, -32, 0, 0],
  [-12, 0, -4, -12, 0, -4, 0, 0, 16, 0, 0, 16, 24, 0, 8, 0, 0, -32],
  [8, 8, 0, 8, 8, 0, -16, 0, 0, -16, 0, 0, -16, -16, 0, 32, 0, 0],
  [8, 0, 8, 8, 0, 8, 0, 0, -16, 0, 0, -16, -16, 0, -16, 0, 0, 32],
  [16, 0, 0, 16, 0, 0, -16, 16, -16, -16, 16, -16, -32, 0, 0, 32, -32, 32]]

/-- The monomial that is a coordinate gives that coordinate. -/
theorem reproduce_mono {inv : List (List ℚ) → Option (List (List ℚ))} (hinv : InvContract inv) {nodes : List (V3 ℚ)}
    {monoms : List PE} {dirs : List Dir} {N : List PE} {dN : List (List PE)} (h1 : monoms.head? = some (.c 1))
    (h : generate inv nodes monoms dirs = some (N, dN)) {K : Type} [Field K] [CharZero K] {l : Nat} {m : PE}
    (hm : monoms[l]? = some m) (x : V3 K) :
    ((N.zip nodes).map fun q => q.1.eval x * m.eval (⟨(q.2.x : K), (q.2.y : K), (q.2.z : K)⟩ : V3 K)).sum = m.eval x := by
  have hpoly : ∀ y : V3 K, (monoms.zipIdx.map fun m => (if m.2 = l then (1 : K) else 0) * m.1.eval y).sum = m.eval y := by
    intro y
    have : monoms.zipIdx = (List.range monoms.length).map fun k => (monoms.getD k (.c 0), k) := by
      apply List.ext_getElem
      · simp
      · intro i h1 h2
        simp at h1
        simp [h1]
    rw [this, List.map_map]
    have e : ∀ k ∈ List.range monoms.length, ((fun m : PE × Nat => (if m.2 = l then (1 : K) else 0) * m.1.eval y) ∘
        fun k => (monoms.getD k (.c 0), k)) k = (monoms.getD k (.c 0)).eval y * (if k = l then (1 : K) else 0) := by
      intro k _
      simp only [Function.comp_apply]
      rw [mul_comm]
    rw [List.map_congr_left e]
    rw [sum_range_ite _ l (List.getElem?_eq_some_iff.1 hm).1 fun k => (monoms.getD k (.c 0)).eval y]
    rw [List.getD_eq_getElem?_getD, hm, Option.getD_some]
  have := (C36_reproduces hinv h1 h (fun k => if k = l then (1 : K) else 0) x).1
  simp only [hpoly] at this
  exact this

/-- Generated functions whose base has the coordinates among its monomials interpolate. -/
theorem interpolates_of_generate {inv : List (List ℚ) → Option (List (List ℚ))} (hinv : InvContract inv)
    {lc : List (V3 Int)} {monoms : List PE} {dirs : List Dir} {N : List PE} {dN : List (List PE)} {dim : Nat}
    (h1 : monoms.head? = some (.c 1)) (hr : ∃ l : Nat, monoms[l]? = some PE.r) (hs : dim < 2 ∨ ∃ l : Nat, monoms[l]? = some PE.s)
    (ht : dim < 3 ∨ ∃ l : Nat, monoms[l]? = some PE.t) (h : generate inv (nodesQ lc) monoms dirs = some (N, dN)) {K : Type}
    [Field K] [CharZero K] : Interpolates K dim lc N := by
  have hne : monoms ≠ [] := by rintro rfl; simp at h1
  obtain ⟨hl, hk⟩ := C36_kronecker hinv hne h (K := K)
  have hlen : N.length = lc.length := by rw [hl]; simp [nodesQ]
  have hunity : ∀ x : V3 K, (N.map fun e => e.eval x).sum = 1 := fun x => (C36_reproduces hinv h1 h (fun _ => (0 : K)) x).2
  refine ⟨hlen, hunity, ?_, ?_⟩
  · intro i j e p hi hj
    have := hk i j e ⟨mkRat p.x 2, mkRat p.y 2, mkRat p.z 2⟩ hi (by rw [nodesQ, List.getElem?_map, hj]; rfl)
    rw [half_cast]
    exact this
  · intro a b c d x hc hd
    have hz : N.zip (nodesQ lc) = (N.zip lc).map fun q => (q.1, (⟨mkRat q.2.x 2, mkRat q.2.y 2, mkRat q.2.z 2⟩ : V3 ℚ)) := by
      rw [nodesQ, List.zip_map_right]; rfl
    have conv : ∀ m : PE, ((N.zip (nodesQ lc)).map fun q => q.1.eval x *
        m.eval (⟨(q.2.x : K), (q.2.y : K), (q.2.z : K)⟩ : V3 K)).sum =
        ((N.zip lc).map fun q => q.1.eval x * m.eval (half q.2 : V3 K)).sum := by
      intro m
      rw [hz, List.map_map]
      congr 1
      apply List.map_congr_left
      intro q _
      rw [half_cast]; rfl
    have hsum : ((N.zip lc).map fun q => q.1.eval x).sum = 1 := by
      rw [← hunity x]
      congr 1
      conv_rhs => rw [show N = (N.zip lc).map Prod.fst from (List.map_fst_zip (by omega)).symm, List.map_map]
      rfl
    have split : ((N.zip lc).map fun q => q.1.eval x * linVal a b c d (half q.2 : V3 K)).sum =
        a * ((N.zip lc).map fun q => q.1.eval x).sum +
        b * ((N.zip lc).map fun q => q.1.eval x * PE.r.eval (half q.2 : V3 K)).sum +
        c * ((N.zip lc).map fun q => q.1.eval x * PE.s.eval (half q.2 : V3 K)).sum +
        d * ((N.zip lc).map fun q => q.1.eval x * PE.t.eval (half q.2 : V3 K)).sum := by
      generalize N.zip lc = Z
      induction Z with
      | nil => simp
      | cons q Z ih =>
        simp only [List.map_cons, List.sum_cons]
        rw [ih]
        simp only [linVal, PE.eval]
        ring
    rw [split, hsum]
    obtain ⟨l, hr⟩ := hr
    have er := reproduce_mono hinv h1 h hr x
    rw [conv] at er
    have es : c * ((N.zip lc).map fun q => q.1.eval x * PE.s.eval (half q.2 : V3 K)).sum = c * x.y := by
      rcases hs with hs | ⟨l, hs⟩
      · rw [hc hs]; simp
      · have := reproduce_mono hinv h1 h hs x
        rw [conv] at this
        rw [this]; rfl
    have et : d * ((N.zip lc).map fun q => q.1.eval x * PE.t.eval (half q.2 : V3 K)).sum = d * x.z := by
      rcases ht with ht | ⟨l, ht⟩
      · rw [hd ht]; simp
      · have := reproduce_mono hinv h1 h ht x
        rw [conv] at this
        rw [this]; rfl
    rw [er, es, et]
    simp [PE.eval, linVal]

theorem one_eq_c : (1 : PE) = PE.c 1 := by
  change PE.c ((1 : Nat) : ℚ) = PE.c 1
  rw [Nat.cast_one]

theorem inverseL2 : IsInverse (nodesQ lcL2).length (genM (nodesQ lcL2) baseL2) (over8 inv8L2) :=
  isInverse_of_check (by decide +kernel)

/-- **C36** the generation succeeds for L2, and the functions interpolate. -/
theorem C36_L2 {inv : List (List ℚ) → Option (List (List ℚ))} (hinv : InvContract inv) (dirs : List Dir) (K : Type)
    [Field K] [CharZero K] :
    ∃ N dN, generate inv (nodesQ lcL2) baseL2 dirs = some (N, dN) ∧ Interpolates K 1 lcL2 N := by
  obtain ⟨N, dN, h⟩ := generate_of_inverse hinv dirs (monoms := baseL2) (by decide +kernel)
    inverseL2
  exact ⟨N, dN, h, interpolates_of_generate hinv (by rw [← one_eq_c]; rfl) ⟨1, rfl⟩ (Or.inl (by decide))
    (Or.inl (by decide)) h⟩

theorem inverseL3 : IsInverse (nodesQ Shp.lcL3).length (genM (nodesQ Shp.lcL3) baseL3) (over8 inv8L3) :=
  isInverse_of_check (by decide +kernel)

/-- **C36** the generation succeeds for L3, and the functions interpolate. -/
theorem C36_L3 {inv : List (List ℚ) → Option (List (List ℚ))} (hinv : InvContract inv) (dirs : List Dir) (K : Type)
    [Field K] [CharZero K] :
    ∃ N dN, generate inv (nodesQ Shp.lcL3) baseL3 dirs = some (N, dN) ∧ Interpolates K 1 Shp.lcL3 N := by
  obtain ⟨N, dN, h⟩ := generate_of_inverse hinv dirs (monoms := baseL3) (by decide +kernel)
    inverseL3
  exact ⟨N, dN, h, interpolates_of_generate hinv (by rw [← one_eq_c]; rfl) ⟨1, rfl⟩ (Or.inl (by decide))
    (Or.inl (by decide)) h⟩

theorem inverseT3 : IsInverse (nodesQ lcT3).length (genM (nodesQ lcT3) baseT3) (over8 inv8T3) :=
  isInverse_of_check (by decide +kernel)

/-- **C36** the generation succeeds for T3, and the functions interpolate. -/
theorem C36_T3 {inv : List (List ℚ) → Option (List (List ℚ))} (hinv : InvContract inv) (dirs : List Dir) (K : Type)
    [Field K] [CharZero K] :
    ∃ N dN, generate inv (nodesQ lcT3) baseT3 dirs = some (N, dN) ∧ Interpolates K 2 lcT3 N := by
  obtain ⟨N, dN, h⟩ := generate_of_inverse hinv dirs (monoms := baseT3) (by decide +kernel)
    inverseT3
  exact ⟨N, dN, h, interpolates_of_generate hinv (by rw [← one_eq_c]; rfl) ⟨1, rfl⟩ (Or.inr ⟨2, rfl⟩)
    (Or.inl (by decide)) h⟩

theorem inverseT6 : IsInverse (nodesQ lcT6).length (genM (nodesQ lcT6) baseT6) (over8 inv8T6) :=
  isInverse_of_check (by decide +kernel)

/-- **C36** the generation succeeds for T6, and the functions interpolate. -/
theorem C36_T6 {inv : List (List ℚ) → Option (List (List ℚ))} (hinv : InvContract inv) (dirs : List Dir) (K : Type)
    [Field K] [CharZero K] :
    ∃ N dN, generate inv (nodesQ lcT6) baseT6 dirs = some (N, dN) ∧ Interpolates K 2 lcT6 N := by
  obtain ⟨N, dN, h⟩ := generate_of_inverse hinv dirs (monoms := baseT6) (by decide +kernel)
    inverseT6
  exact ⟨N, dN, h, interpolates_of_generate hinv (by rw [← one_eq_c]; rfl) ⟨1, rfl⟩ (Or.inr ⟨2, rfl⟩)
    (Or.inl (by decide)) h⟩

theorem inverseQ4 : IsInverse (nodesQ lcQ4).length (genM (nodesQ lcQ4) baseQ4) (over8 inv8Q4) :=
  isInverse_of_check (by decide +kernel)

/-- **C36** the generation succeeds for Q4, and the functions interpolate. -/
theorem C36_Q4 {inv : List (List ℚ) → Option (List (List ℚ))} (hinv : InvContract inv) (dirs : List Dir) (K : Type)
    [Field K] [CharZero K] :
    ∃ N dN, generate inv (nodesQ lcQ4) baseQ4 dirs = some (N, dN) ∧ Interpolates K 2 lcQ4 N := by
  obtain ⟨N, dN, h⟩ := generate_of_inverse hinv dirs (monoms := baseQ4) (by decide +kernel)
    inverseQ4
  exact ⟨N, dN, h, interpolates_of_generate hinv (by rw [← one_eq_c]; rfl) ⟨1, rfl⟩ (Or.inr ⟨2, rfl⟩)
    (Or.inl (by decide)) h⟩

theorem inverseQ9 : IsInverse (nodesQ lcQ9).length (genM (nodesQ lcQ9) baseQ9) (over8 inv8Q9) :=
  isInverse_of_check (by decide +kernel)

/-- **C36** the generation succeeds for Q9, and the functions interpolate. -/
theorem C36_Q9 {inv : List (List ℚ) → Option (List (List ℚ))} (hinv : InvContract inv) (dirs : List Dir) (K : Type)
    [Field K] [CharZero K] :
    ∃ N dN, generate inv (nodesQ lcQ9) baseQ9 dirs = some (N, dN) ∧ Interpolates K 2 lcQ9 N := by
  obtain ⟨N, dN, h⟩ := generate_of_inverse hinv dirs (monoms := baseQ9) (by decide +kernel)
    inverseQ9
  exact ⟨N, dN, h, interpolates_of_generate hinv (by rw [← one_eq_c]; rfl) ⟨1, rfl⟩ (Or.inr ⟨2, rfl⟩)
    (Or.inl (by decide)) h⟩

theorem inverseTET10 : IsInverse (nodesQ lcTET10).length (genM (nodesQ lcTET10) baseTET10) (over8 inv8TET10) :=
  isInverse_of_check (by decide +kernel)

/-- **C36** the generation succeeds for TET10, and the functions interpolate. -/
theorem C36_TET10 {inv : List (List ℚ) → Option (List (List ℚ))} (hinv : InvContract inv) (dirs : List Dir) (K : Type)
    [Field K] [CharZero K] :
    ∃ N dN, generate inv (nodesQ lcTET10) baseTET10 dirs = some (N, dN) ∧ Interpolates K 3 lcTET10 N := by
  obtain ⟨N, dN, h⟩ := generate_of_inverse hinv dirs (monoms := baseTET10) (by decide +kernel)
    inverseTET10
  exact ⟨N, dN, h, interpolates_of_generate hinv (by rw [← one_eq_c]; rfl) ⟨1, rfl⟩ (Or.inr ⟨2, rfl⟩)
    (Or.inr ⟨3, rfl⟩) h⟩

theorem inverseH8 : IsInverse (nodesQ lcH8).length (genM (nodesQ lcH8) baseH8) (over8 inv8H8) :=
  isInverse_of_check (by decide +kernel)

/-- **C36** the generation succeeds for H8, and the functions interpolate. -/
theorem C36_H8 {inv : List (List ℚ) → Option (List (List ℚ))} (hinv : InvContract inv) (dirs : List Dir) (K : Type)
    [Field K] [CharZero K] :
    ∃ N dN, generate inv (nodesQ lcH8) baseH8 dirs = some (N, dN) ∧ Interpolates K 3 lcH8 N := by
  obtain ⟨N, dN, h⟩ := generate_of_inverse hinv dirs (monoms := baseH8) (by decide +kernel)
    inverseH8
  exact ⟨N, dN, h, interpolates_of_generate hinv (by rw [← one_eq_c]; rfl) ⟨1, rfl⟩ (Or.inr ⟨2, rfl⟩)
    (Or.inr ⟨3, rfl⟩) h⟩

theorem inverseH27 : IsInverse (nodesQ lcH27).length (genM (nodesQ lcH27) baseH27) (over8 inv8H27) :=
  isInverse_of_check (by decide +kernel)

/-- **C36** the generation succeeds for H27, and the functions interpolate. -/
theorem C36_H27 {inv : List (List ℚ) → Option (List (List ℚ))} (hinv : InvContract inv) (dirs : List Dir) (K : Type)
    [Field K] [CharZero K] :
    ∃ N dN, generate inv (nodesQ lcH27) baseH27 dirs = some (N, dN) ∧ Interpolates K 3 lcH27 N := by
  obtain ⟨N, dN, h⟩ := generate_of_inverse hinv dirs (monoms := baseH27) (by decide +kernel)
    inverseH27
  exact ⟨N, dN, h, interpolates_of_generate hinv (by rw [← one_eq_c]; rfl) ⟨1, rfl⟩ (Or.inr ⟨2, rfl⟩)
    (Or.inr ⟨3, rfl⟩) h⟩

theorem inverseW6 : IsInverse (nodesQ lcW6).length (genM (nodesQ lcW6) baseW6) (over8 inv8W6) :=
  isInverse_of_check (by decide +kernel)

/-- **C36** the generation succeeds for W6, and the functions interpolate. -/
theorem C36_W6 {inv : List (List ℚ) → Option (List (List ℚ))} (hinv : InvContract inv) (dirs : List Dir) (K : Type)
    [Field K] [CharZero K] :
    ∃ N dN, generate inv (nodesQ lcW6) baseW6 dirs = some (N, dN) ∧ Interpolates K 3 lcW6 N := by
  obtain ⟨N, dN, h⟩ := generate_of_inverse hinv dirs (monoms := baseW6) (by decide +kernel)
    inverseW6
  exact ⟨N, dN, h, interpolates_of_generate hinv (by rw [← one_eq_c]; rfl) ⟨1, rfl⟩ (Or.inr ⟨2, rfl⟩)
    (Or.inr ⟨3, rfl⟩) h⟩

theorem inverseW18 : IsInverse (nodesQ lcW18).length (genM (nodesQ lcW18) baseW18) (over8 inv8W18) :=
  isInverse_of_check (by decide +kernel)

/-- **C36** the generation succeeds for W18, and the functions interpolate. -/
theorem C36_W18 {inv : List (List ℚ) → Option (List (List ℚ))} (hinv : InvContract inv) (dirs : List Dir) (K : Type)
    [Field K] [CharZero K] :
    ∃ N dN, generate inv (nodesQ lcW18) baseW18 dirs = some (N, dN) ∧ Interpolates K 3 lcW18 N := by
  obtain ⟨N, dN, h⟩ := generate_of_inverse hinv dirs (monoms := baseW18) (by decide +kernel)
    inverseW18
  exact ⟨N, dN, h, interpolates_of_generate hinv (by rw [← one_eq_c]; rfl) ⟨1, rfl⟩ (Or.inr ⟨2, rfl⟩)
    (Or.inr ⟨6, rfl⟩) h⟩

/-- **C36** the generation fails for TET4, whose base has ten monomials for four nodes. -/
theorem C36_TET4_false (inv : List (List ℚ) → Option (List (List ℚ))) (dirs : List Dir) :
    generate inv (nodesQ lcTET4) baseTET4 dirs = none := by
  rw [generate, if_pos (by decide +kernel)]

/-- The assumption on the inversion can be met (by choice of an inverse if there is one). -/
example : ∃ inv, InvContract inv := by
  classical
  refine ⟨fun M => if h : ∃ C, IsInverse M.length M C then some (Classical.choose h) else none, ?_, ?_⟩
  · intro M C h
    split at h
    · rename_i h'
      cases Option.some.inj h
      exact Classical.choose_spec h'
    · cases h
  · intro M C h
    refine ⟨Classical.choose ⟨C, h⟩, ?_⟩
    rw [dif_pos ⟨C, h⟩]

/-! ### agreement with the hand-written functions -/

theorem generate_agrees {inv : List (List ℚ) → Option (List (List ℚ))} (hinv : InvContract inv) {nodes : List (V3 ℚ)}
    {monoms : List PE} {dirs : List Dir} {C : List (List ℚ)} {N : List PE} {dN : List (List PE)} {S : List PE}
    (h : generate inv nodes monoms dirs = some (N, dN)) (hne : monoms ≠ [])
    (hC : IsInverse nodes.length (genM nodes monoms) C)
    (hS : ((List.range nodes.length).all fun i => PE.same (genShp C (.c 1 :: monoms.tail) i) (S.getD i (.c 0))) = true)
    (hSl : S.length = nodes.length) {K : Type} [Field K] [CharZero K] (x : V3 K) :
    N.map (fun e => e.eval x) = S.map fun e => e.eval x := by
  obtain ⟨hl, ⟨C', hC', hI, rfl⟩, -⟩ := generate_some hinv h
  rw [List.map_map]
  apply List.ext_getElem
  · simp [hSl]
  · intro i h1 h2
    simp only [List.length_map, List.length_range] at h1
    simp only [List.getElem_map, List.getElem_range, Function.comp_apply]
    rw [List.all_eq_true] at hS
    have h3 := PE.same_sound (hS i (List.mem_range.2 h1)) x
    rw [List.getD_eq_getElem?_getD, List.getElem?_eq_getElem (by omega)] at h3
    rw [Option.getD_some] at h3
    rw [← h3, eval_genShp _ _ hne, eval_genShp _ _ hne]
    congr 1
    apply List.map_congr_left
    intro k hk
    rw [hI.unique hC (by have := List.mem_range.1 hk; omega) h1]

/-- **C36** the functions generated for L2 are the hand-written ones. -/
theorem C36_agrees_L2 {inv : List (List ℚ) → Option (List (List ℚ))} (hinv : InvContract inv) {dirs : List Dir}
    {N : List PE} {dN : List (List PE)} (h : generate inv (nodesQ lcL2) baseL2 dirs = some (N, dN)) {K : Type}
    [Field K] [CharZero K] (x : V3 K) : N.map (fun e => e.eval x) = shpL2.map fun e => e.eval x :=
  generate_agrees hinv h (by simp [baseL2]) inverseL2
    (by decide +kernel) (by decide +kernel) x

/-- **C36** the functions generated for T3 are the hand-written ones. -/
theorem C36_agrees_T3 {inv : List (List ℚ) → Option (List (List ℚ))} (hinv : InvContract inv) {dirs : List Dir}
    {N : List PE} {dN : List (List PE)} (h : generate inv (nodesQ lcT3) baseT3 dirs = some (N, dN)) {K : Type}
    [Field K] [CharZero K] (x : V3 K) : N.map (fun e => e.eval x) = shpT3.map fun e => e.eval x :=
  generate_agrees hinv h (by simp [baseT3]) inverseT3
    (by decide +kernel) (by decide +kernel) x

/-- **C36** the functions generated for T6 are the hand-written ones. -/
theorem C36_agrees_T6 {inv : List (List ℚ) → Option (List (List ℚ))} (hinv : InvContract inv) {dirs : List Dir}
    {N : List PE} {dN : List (List PE)} (h : generate inv (nodesQ lcT6) baseT6 dirs = some (N, dN)) {K : Type}
    [Field K] [CharZero K] (x : V3 K) : N.map (fun e => e.eval x) = shpT6.map fun e => e.eval x :=
  generate_agrees hinv h (by simp [baseT6]) inverseT6
    (by decide +kernel) (by decide +kernel) x

/-- **C36** the functions generated for Q4 are the hand-written ones. -/
theorem C36_agrees_Q4 {inv : List (List ℚ) → Option (List (List ℚ))} (hinv : InvContract inv) {dirs : List Dir}
    {N : List PE} {dN : List (List PE)} (h : generate inv (nodesQ lcQ4) baseQ4 dirs = some (N, dN)) {K : Type}
    [Field K] [CharZero K] (x : V3 K) : N.map (fun e => e.eval x) = shpQ4.map fun e => e.eval x :=
  generate_agrees hinv h (by simp [baseQ4]) inverseQ4
    (by decide +kernel) (by decide +kernel) x

/-- **C36** the functions generated for Q9 are the hand-written ones. -/
theorem C36_agrees_Q9 {inv : List (List ℚ) → Option (List (List ℚ))} (hinv : InvContract inv) {dirs : List Dir}
    {N : List PE} {dN : List (List PE)} (h : generate inv (nodesQ lcQ9) baseQ9 dirs = some (N, dN)) {K : Type}
    [Field K] [CharZero K] (x : V3 K) : N.map (fun e => e.eval x) = shpQ9.map fun e => e.eval x :=
  generate_agrees hinv h (by simp [baseQ9]) inverseQ9
    (by decide +kernel) (by decide +kernel) x

/-- **C36** the functions generated for H8 are the hand-written ones. -/
theorem C36_agrees_H8 {inv : List (List ℚ) → Option (List (List ℚ))} (hinv : InvContract inv) {dirs : List Dir}
    {N : List PE} {dN : List (List PE)} (h : generate inv (nodesQ lcH8) baseH8 dirs = some (N, dN)) {K : Type}
    [Field K] [CharZero K] (x : V3 K) : N.map (fun e => e.eval x) = shpH8.map fun e => e.eval x :=
  generate_agrees hinv h (by simp [baseH8]) inverseH8
    (by decide +kernel) (by decide +kernel) x

/-- **C36** the functions generated for H27 are the hand-written ones. -/
theorem C36_agrees_H27 {inv : List (List ℚ) → Option (List (List ℚ))} (hinv : InvContract inv) {dirs : List Dir}
    {N : List PE} {dN : List (List PE)} (h : generate inv (nodesQ lcH27) baseH27 dirs = some (N, dN)) {K : Type}
    [Field K] [CharZero K] (x : V3 K) : N.map (fun e => e.eval x) = shpH27.map fun e => e.eval x :=
  generate_agrees hinv h (by simp [baseH27]) inverseH27
    (by decide +kernel) (by decide +kernel) x

end PM
