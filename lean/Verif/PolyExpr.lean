import Verif.Cells
import Mathlib.Analysis.Calculus.Deriv.Pow
import Mathlib.Analysis.Calculus.Deriv.Add
import Mathlib.Analysis.Calculus.Deriv.Mul
import Mathlib.Data.Rat.Cast.CharZero
import Mathlib.Tactic.Ring
import Mathlib.Tactic.FieldSimp

/-!
# Polynomial expressions in local coordinates

The shape functions of the library are given in its source as arithmetic expressions in the local coordinates
`r, s, t`. Here these expressions are syntax trees (`PE`), so that they can be evaluated at points of any field,
differentiated, and compared by computation. The tool is not part of the modelled code; what is used of it are
the two theorems `PE.same_sound` (equal normal forms have equal values everywhere) and `PE.hasDerivAt` (the formal
derivative is the derivative).
-/

namespace PM

/-- Directions of local coordinates. -/
inductive Dir | r | s | t
deriving DecidableEq

/-- Expressions in the local coordinates. -/
inductive PE
  | c (q : ℚ)
  | r | s | t
  | add (a b : PE)
  | sub (a b : PE)
  | mul (a b : PE)
  | neg (a : PE)
  | pow (a : PE) (n : Nat)

namespace PE

instance : Add PE := ⟨PE.add⟩
instance : Sub PE := ⟨PE.sub⟩
instance : Mul PE := ⟨PE.mul⟩
instance : Neg PE := ⟨PE.neg⟩
instance : HPow PE Nat PE := ⟨PE.pow⟩
instance (n : Nat) : OfNat PE n := ⟨PE.c (n : ℚ)⟩
instance : OfScientific PE := ⟨fun m s e => PE.c (OfScientific.ofScientific m s e)⟩
instance : HDiv PE Nat PE := ⟨fun a n => PE.mul (PE.c (1 / (n : ℚ))) a⟩
instance : Inhabited PE := ⟨PE.c 0⟩

/-! ## values -/

section
variable {K : Type} [Field K]

/-- The value at a point. -/
def eval (x : V3 K) : PE → K
  | c q => (q : K)
  | r => x.x
  | s => x.y
  | t => x.z
  | add a b => a.eval x + b.eval x
  | sub a b => a.eval x - b.eval x
  | mul a b => a.eval x * b.eval x
  | neg a => -a.eval x
  | pow a n => a.eval x ^ n

theorem eval_add (x : V3 K) (a b : PE) : (a + b).eval x = a.eval x + b.eval x := rfl
theorem eval_sub (x : V3 K) (a b : PE) : (a - b).eval x = a.eval x - b.eval x := rfl
theorem eval_mul (x : V3 K) (a b : PE) : (a * b).eval x = a.eval x * b.eval x := rfl
theorem eval_neg (x : V3 K) (a : PE) : (-a).eval x = -a.eval x := rfl
theorem eval_pow (x : V3 K) (a : PE) (n : Nat) : (a ^ n).eval x = a.eval x ^ n := rfl
theorem eval_c (x : V3 K) (q : ℚ) : (PE.c q).eval x = (q : K) := rfl

end

/-- A power of a rational number. -/
def powQ (q : ℚ) : Nat → ℚ
  | 0 => 1
  | n + 1 => powQ q n * q

/-- The value at a rational point, for computation. -/
def evalQ (x : V3 ℚ) : PE → ℚ
  | c q => q
  | r => x.x
  | s => x.y
  | t => x.z
  | add a b => a.evalQ x + b.evalQ x
  | sub a b => a.evalQ x - b.evalQ x
  | mul a b => a.evalQ x * b.evalQ x
  | neg a => -a.evalQ x
  | pow a n => powQ (a.evalQ x) n

theorem powQ_eq (q : ℚ) (n : Nat) : powQ q n = q ^ n := by
  induction n with
  | zero => rw [powQ, pow_zero]
  | succ n ih => rw [powQ, ih, pow_succ]

theorem eval_cast {K : Type} [Field K] [CharZero K] (x : V3 ℚ) (e : PE) :
    e.eval (⟨(x.x : K), (x.y : K), (x.z : K)⟩ : V3 K) = ((e.evalQ x : ℚ) : K) := by
  induction e with
  | c q => rfl
  | r => rfl
  | s => rfl
  | t => rfl
  | add a b ha hb => simp only [eval, evalQ, ha, hb, Rat.cast_add]
  | sub a b ha hb => simp only [eval, evalQ, ha, hb, Rat.cast_sub]
  | mul a b ha hb => simp only [eval, evalQ, ha, hb, Rat.cast_mul]
  | neg a ha => simp only [eval, evalQ, ha, Rat.cast_neg]
  | pow a n ha => simp only [eval, evalQ, ha, powQ_eq, Rat.cast_pow]

/-! ## normal forms -/

/-- A polynomial as a list of monomials with coefficients. -/
abbrev NF := List ((Nat × Nat × Nat) × ℚ)

/-- Equality of exponents. -/
def keyEq (a b : Nat × Nat × Nat) : Bool := a.1 == b.1 && a.2.1 == b.2.1 && a.2.2 == b.2.2

/-- Order of exponents. -/
def keyLt (a b : Nat × Nat × Nat) : Bool :=
  Nat.blt a.1 b.1 || (a.1 == b.1 && (Nat.blt a.2.1 b.2.1 || (a.2.1 == b.2.1 && Nat.blt a.2.2 b.2.2)))

theorem keyEq_iff {a b : Nat × Nat × Nat} (h : keyEq a b = true) : a = b := by
  obtain ⟨a1, a2, a3⟩ := a
  obtain ⟨b1, b2, b3⟩ := b
  simp [keyEq] at h
  obtain ⟨⟨rfl, rfl⟩, rfl⟩ := h
  rfl

/-- Adds a term to a polynomial; zero coefficients are dropped. -/
def addTerm (k : Nat × Nat × Nat) (q : ℚ) : NF → NF
  | [] => if q.num == 0 then [] else [(k, q)]
  | (k', q') :: p =>
    if keyEq k k' then (if (q + q').num == 0 then p else (k', q + q') :: p)
    else if keyLt k k' then (if q.num == 0 then (k', q') :: p else (k, q) :: (k', q') :: p)
    else (k', q') :: addTerm k q p

/-- The sum of two polynomials. -/
def nfAdd (a b : NF) : NF := a.foldr (fun m acc => addTerm m.1 m.2 acc) b

/-- The product of a term and a polynomial, added to another polynomial. -/
def nfMulTerm (k : Nat × Nat × Nat) (q : ℚ) (b acc : NF) : NF :=
  b.foldr (fun m acc => addTerm (k.1 + m.1.1, k.2.1 + m.1.2.1, k.2.2 + m.1.2.2) (q * m.2) acc) acc

/-- The product of two polynomials. -/
def nfMul (a b : NF) : NF := a.foldr (fun m acc => nfMulTerm m.1 m.2 b acc) []

/-- A power of a polynomial. -/
def nfPow (a : NF) : Nat → NF
  | 0 => [((0, 0, 0), 1)]
  | n + 1 => nfMul (nfPow a n) a

/-- The normal form of an expression. -/
def nf : PE → NF
  | c q => addTerm (0, 0, 0) q []
  | r => [((1, 0, 0), 1)]
  | s => [((0, 1, 0), 1)]
  | t => [((0, 0, 1), 1)]
  | add a b => nfAdd a.nf b.nf
  | sub a b => nfAdd (a.nf.map fun m => (m.1, m.2)) (b.nf.map fun m => (m.1, -m.2))
  | mul a b => nfMul a.nf b.nf
  | neg a => a.nf.map fun m => (m.1, -m.2)
  | pow a n => nfPow a.nf n

/-- Two expressions are the same polynomial. -/
def same (a b : PE) : Bool := (sub a b).nf.isEmpty

section
variable {K : Type} [Field K] [CharZero K]

/-- The value of a monomial. -/
def monoVal (x : V3 K) (k : Nat × Nat × Nat) : K := x.x ^ k.1 * x.y ^ k.2.1 * x.z ^ k.2.2

/-- The value of a polynomial. -/
def nfEval (x : V3 K) (p : NF) : K := (p.map fun m => (m.2 : K) * monoVal x m.1).sum

omit [CharZero K] in
theorem nfEval_cons (x : V3 K) (m : (Nat × Nat × Nat) × ℚ) (p : NF) :
    nfEval x (m :: p) = (m.2 : K) * monoVal x m.1 + nfEval x p := by
  simp [nfEval]

omit [CharZero K] in
theorem cast_of_num {q : ℚ} (h : (q.num == 0) = true) : (q : K) = 0 := by
  rw [beq_iff_eq] at h
  rw [Rat.num_eq_zero.1 h, Rat.cast_zero]

theorem nfEval_addTerm (x : V3 K) (k : Nat × Nat × Nat) (q : ℚ) (p : NF) :
    nfEval x (addTerm k q p) = (q : K) * monoVal x k + nfEval x p := by
  induction p with
  | nil =>
    rw [addTerm]
    split
    · rename_i h; rw [cast_of_num (K := K) h]; simp [nfEval]
    · simp [nfEval]
  | cons m p ih =>
    obtain ⟨k', q'⟩ := m
    rw [addTerm]
    by_cases h1 : keyEq k k' = true
    · rw [if_pos h1]
      have hk := keyEq_iff h1
      subst hk
      by_cases h2 : ((q + q').num == 0) = true
      · rw [if_pos h2, nfEval_cons]
        have := cast_of_num (K := K) h2
        rw [Rat.cast_add] at this
        simp only
        linear_combination (-monoVal x k) * this
      · rw [if_neg h2, nfEval_cons, nfEval_cons]
        simp only [Rat.cast_add]
        ring
    · rw [if_neg h1]
      by_cases h2 : keyLt k k' = true
      · rw [if_pos h2]
        by_cases h3 : (q.num == 0) = true
        · rw [if_pos h3, cast_of_num (K := K) h3]; ring
        · rw [if_neg h3, nfEval_cons]
      · rw [if_neg h2, nfEval_cons, ih, nfEval_cons]; ring

theorem nfEval_add (x : V3 K) (a b : NF) : nfEval x (nfAdd a b) = nfEval x a + nfEval x b := by
  induction a with
  | nil => simp [nfAdd, nfEval]
  | cons m a ih =>
    change nfEval x (addTerm m.1 m.2 (nfAdd a b)) = _
    rw [nfEval_addTerm, ih, nfEval_cons]; ring

theorem nfEval_mulTerm (x : V3 K) (k : Nat × Nat × Nat) (q : ℚ) (b acc : NF) :
    nfEval x (nfMulTerm k q b acc) = (q : K) * monoVal x k * nfEval x b + nfEval x acc := by
  induction b with
  | nil => simp [nfMulTerm, nfEval]
  | cons m b ih =>
    change nfEval x (addTerm _ _ (nfMulTerm k q b acc)) = _
    rw [nfEval_addTerm, ih, nfEval_cons, Rat.cast_mul]
    simp only [monoVal, pow_add]
    ring

theorem nfEval_mul (x : V3 K) (a b : NF) : nfEval x (nfMul a b) = nfEval x a * nfEval x b := by
  induction a with
  | nil => simp [nfMul, nfEval]
  | cons m a ih =>
    change nfEval x (nfMulTerm m.1 m.2 b (nfMul a b)) = _
    rw [nfEval_mulTerm, ih, nfEval_cons]; ring

theorem nfEval_pow (x : V3 K) (a : NF) (n : Nat) : nfEval x (nfPow a n) = nfEval x a ^ n := by
  induction n with
  | zero => simp [nfPow, nfEval, monoVal]
  | succ n ih => rw [nfPow, nfEval_mul, ih, pow_succ]

omit [CharZero K] in
theorem nfEval_neg (x : V3 K) (a : NF) : nfEval x (a.map fun m => (m.1, -m.2)) = -nfEval x a := by
  induction a with
  | nil => simp [nfEval]
  | cons m a ih => rw [List.map_cons, nfEval_cons, ih, nfEval_cons]; simp only [Rat.cast_neg]; ring

theorem nf_sound (x : V3 K) (e : PE) : nfEval x e.nf = e.eval x := by
  induction e with
  | c q => rw [nf, nfEval_addTerm]; simp [nfEval, monoVal, eval]
  | r => simp [nf, nfEval, monoVal, eval]
  | s => simp [nf, nfEval, monoVal, eval]
  | t => simp [nf, nfEval, monoVal, eval]
  | add a b ha hb => rw [nf, nfEval_add, ha, hb]; rfl
  | sub a b ha hb =>
    rw [nf, nfEval_add, nfEval_neg, hb]
    have : (a.nf.map fun m => (m.1, m.2)) = a.nf := List.map_id _
    rw [this, ha, eval]; ring
  | mul a b ha hb => rw [nf, nfEval_mul, ha, hb]; rfl
  | neg a ha => rw [nf, nfEval_neg, ha]; rfl
  | pow a n ha => rw [nf, nfEval_pow, ha]; rfl

/-- Expressions with the same normal form have the same value everywhere. -/
theorem same_sound {a b : PE} (h : same a b = true) (x : V3 K) : a.eval x = b.eval x := by
  have h1 := nf_sound x (sub a b)
  rw [same, List.isEmpty_iff] at h
  rw [h, eval] at h1
  have : nfEval x ([] : NF) = 0 := by simp [nfEval]
  rw [this] at h1
  exact (sub_eq_zero.1 h1.symm)

end

/-! ## derivatives -/

/-- The formal partial derivative. -/
def diff (d : Dir) : PE → PE
  | c _ => c 0
  | r => if d = .r then c 1 else c 0
  | s => if d = .s then c 1 else c 0
  | t => if d = .t then c 1 else c 0
  | add a b => add (a.diff d) (b.diff d)
  | sub a b => sub (a.diff d) (b.diff d)
  | mul a b => add (mul (a.diff d) b) (mul a (b.diff d))
  | neg a => neg (a.diff d)
  | pow a n => mul (mul (c n) (pow a (n - 1))) (a.diff d)

end PE

/-- A point with one coordinate replaced. -/
def V3.upd {K : Type} (x : V3 K) : Dir → K → V3 K
  | .r, v => ⟨v, x.y, x.z⟩
  | .s, v => ⟨x.x, v, x.z⟩
  | .t, v => ⟨x.x, x.y, v⟩

/-- A coordinate of a point. -/
def V3.coord {K : Type} (x : V3 K) : Dir → K
  | .r => x.x
  | .s => x.y
  | .t => x.z

theorem V3.upd_coord {K : Type} (x : V3 K) (d : Dir) : x.upd d (x.coord d) = x := by
  cases d <;> rfl

/-- `D` is the partial derivative of `f` at `x` in direction `d`. -/
def IsPartial (f : V3 ℝ → ℝ) (d : Dir) (x : V3 ℝ) (D : ℝ) : Prop :=
  HasDerivAt (fun v => f (x.upd d v)) D (x.coord d)

namespace PE

theorem hasDerivAt (e : PE) (d : Dir) (x : V3 ℝ) :
    IsPartial (fun y => e.eval y) d x ((e.diff d).eval x) := by
  unfold IsPartial
  induction e with
  | c q => simpa [eval, diff] using hasDerivAt_const (x.coord d) ((q : ℚ) : ℝ)
  | r =>
    cases d
    · simpa [eval, diff, V3.upd, V3.coord] using hasDerivAt_id' x.x
    · simpa [eval, diff, V3.upd, V3.coord] using hasDerivAt_const x.y x.x
    · simpa [eval, diff, V3.upd, V3.coord] using hasDerivAt_const x.z x.x
  | s =>
    cases d
    · simpa [eval, diff, V3.upd, V3.coord] using hasDerivAt_const x.x x.y
    · simpa [eval, diff, V3.upd, V3.coord] using hasDerivAt_id' x.y
    · simpa [eval, diff, V3.upd, V3.coord] using hasDerivAt_const x.z x.y
  | t =>
    cases d
    · simpa [eval, diff, V3.upd, V3.coord] using hasDerivAt_const x.x x.z
    · simpa [eval, diff, V3.upd, V3.coord] using hasDerivAt_const x.y x.z
    · simpa [eval, diff, V3.upd, V3.coord] using hasDerivAt_id' x.z
  | add a b ha hb => exact ha.fun_add hb
  | sub a b ha hb => exact ha.fun_sub hb
  | mul a b ha hb =>
    have h := ha.fun_mul hb
    simp only [V3.upd_coord] at h
    exact h
  | neg a ha => exact ha.fun_neg
  | pow a n ha =>
    have h := ha.fun_pow n
    simp only [V3.upd_coord] at h
    simpa [eval, diff] using h

end PE

end PM
