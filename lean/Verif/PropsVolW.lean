import Verif.PropsVolQ

/-!
# C38: wedges and quadratic cells with straight sides
-/

namespace PM

open V3

/-! ## the generated functions of wedges -/

/-- The generated functions, given any inverse. -/
theorem generate_explicit {inv : List (List ℚ) → Option (List (List ℚ))} (hinv : InvContract inv) {nodes : List (V3 ℚ)}
    {monoms : List PE} {dirs : List Dir} {C0 : List (List ℚ)} (hl : monoms.length = nodes.length)
    (h0 : IsInverse nodes.length (genM nodes monoms) C0) {N : List PE} {dN : List (List PE)}
    (h : generate inv nodes monoms dirs = some (N, dN)) :
    N = (List.range nodes.length).map (genShp C0 (.c 1 :: monoms.tail)) ∧ dN = N.map fun f => dirs.map fun d => f.diff d := by
  obtain ⟨-, ⟨C, -, hC, rfl⟩, hd⟩ := generate_some hinv h
  refine ⟨?_, hd⟩
  apply List.map_congr_left
  intro i hi
  have hi' := List.mem_range.1 hi
  rw [genShp, genShp]
  congr 1
  apply List.map_congr_left
  intro k hk
  have hk' := List.mem_range.1 hk
  have : k < nodes.length := by
    simp only [List.length_cons, List.length_tail] at hk'
    omega
  rw [hC.unique h0 this hi']

/-- Equality of tables of expressions as polynomials. -/
def tableSame : List (List PE) → List (List PE) → Bool
  | row :: T, row' :: T' => rowSame row row' && tableSame T T'
  | [], [] => true
  | _, _ => false
where
  /-- Equality of rows. -/
  rowSame : List PE → List PE → Bool
    | e :: l, e' :: l' => PE.same e e' && rowSame l l'
    | [], [] => true
    | _, _ => false

theorem rowSame_sound {l l' : List PE} (h : tableSame.rowSame l l' = true) (x : V3 ℝ) :
    (l.map fun e => e.eval x) = l'.map fun e => e.eval x := by
  induction l generalizing l' with
  | nil =>
    cases l' with
    | nil => rfl
    | cons e l => simp [tableSame.rowSame] at h
  | cons e l ih =>
    cases l' with
    | nil => simp [tableSame.rowSame] at h
    | cons e' l' =>
      rw [tableSame.rowSame, Bool.and_eq_true] at h
      rw [List.map_cons, List.map_cons, PE.same_sound h.1 x, ih h.2]

theorem tableSame_sound {T T' : List (List PE)} (h : tableSame T T' = true) (x : V3 ℝ) : dshpVals T x = dshpVals T' x := by
  induction T generalizing T' with
  | nil =>
    cases T' with
    | nil => rfl
    | cons e l => simp [tableSame] at h
  | cons row T ih =>
    cases T' with
    | nil => simp [tableSame] at h
    | cons row' T' =>
      rw [tableSame, Bool.and_eq_true] at h
      have := ih h.2
      simp only [dshpVals, List.map_cons] at this ⊢
      rw [this, rowSame_sound h.1 x]

theorem volumeQ_same {T T' : List (List PE)} (h : tableSame T T' = true) (rule : List QP) (X : List (V3 ℝ)) :
    volumeQ T rule X = volumeQ T' rule X := by
  rw [volumeQ_eq, volumeQ_eq]
  congr 1
  funext x
  rw [tableSame_sound h x]

open PE (r s t) in
/-- The derivatives of the linear wedge functions. -/
def dW6 : List (List PE) := [
  [-(1 - t : PE) / (2 : Nat), -(1 - t : PE) / (2 : Nat), -(1 - r - s : PE) / (2 : Nat)],
  [(1 - t : PE) / (2 : Nat), 0, -r / (2 : Nat)],
  [0, (1 - t : PE) / (2 : Nat), -s / (2 : Nat)],
  [-(1 + t : PE) / (2 : Nat), -(1 + t : PE) / (2 : Nat), (1 - r - s : PE) / (2 : Nat)],
  [(1 + t : PE) / (2 : Nat), 0, r / (2 : Nat)],
  [0, (1 + t : PE) / (2 : Nat), s / (2 : Nat)]]

/-- The derivatives generated for `W6`. -/
def genDW6 : List (List PE) :=
  ((List.range 6).map (genShp (over8 inv8W6) (.c 1 :: Shp.baseW6.tail))).map fun f => [Dir.r, .s, .t].map fun d => f.diff d

/-- The derivatives generated for `W18`. -/
def genDW18 : List (List PE) :=
  ((List.range 18).map (genShp (over8 inv8W18) (.c 1 :: Shp.baseW18.tail))).map fun f =>
    [Dir.r, .s, .t].map fun d => f.diff d

theorem genDW6_same : tableSame genDW6 dW6 = true := by decide +kernel

theorem generated_W6 {inv : List (List ℚ) → Option (List (List ℚ))} (hinv : InvContract inv) {N : List PE}
    {dN : List (List PE)} (h : generate inv (nodesQ lcW6) Shp.baseW6 [.r, .s, .t] = some (N, dN)) : dN = genDW6 := by
  obtain ⟨rfl, rfl⟩ := generate_explicit hinv (by decide +kernel) inverseW6 h
  rfl

theorem generated_W18 {inv : List (List ℚ) → Option (List (List ℚ))} (hinv : InvContract inv) {N : List PE}
    {dN : List (List PE)} (h : generate inv (nodesQ lcW18) Shp.baseW18 [.r, .s, .t] = some (N, dN)) : dN = genDW18 := by
  obtain ⟨rfl, rfl⟩ := generate_explicit hinv (by decide +kernel) inverseW18 h
  rfl

/-! ## linear wedges -/

/-- Moments of the triangle. -/
def triMomQ (i j : Nat) : ℚ := mkRat (i.factorial * j.factorial) (i + j + 2).factorial

theorem triMomQ_eq (i j : Nat) : (triMomQ i j : ℝ) = triMom i j 0 := by
  rw [triMomQ, triMom, if_pos rfl, Rat.mkRat_eq_div]
  push_cast; rfl

/-- Moments of the wedge. -/
def wedgeMomQ (k : Nat × Nat × Nat) : ℚ := triMomQ k.1 k.2.1 * lineMomQ k.2.2

theorem wedge_moments {line : List (ℝ × ℝ)} (h : LineExact 5 line) (hin : ∀ q ∈ line, -1 ≤ q.1 ∧ q.1 ≤ 1)
    (k : Nat × Nat × Nat) (hk : (Nat.ble (k.1 + k.2.1) 2 && Nat.ble k.2.2 5) = true) :
    quad (gaussWedge3x3 line) (fun x => PE.monoVal x k) = (wedgeMomQ k : ℝ) := by
  simp only [Bool.and_eq_true, Nat.ble_eq] at hk
  have := (C37_Wedge_3x3 h hin).1 [⟨1, k.1, k.2.1, k.2.2⟩] (by simpa using hk)
  rw [wedgeInt_poly] at this
  simp only [wedgeMomQ, Rat.cast_mul, lineMomQ_eq, triMomQ_eq]
  simpa [quad, polyVal, PE.monoVal] using this

/-- The volume of a linear wedge by the rule with three layers is exact. -/
theorem wedge_exact {line : List (ℝ × ℝ)} (h : LineExact 5 line) (hin : ∀ q ∈ line, -1 ≤ q.1 ∧ q.1 ≤ 1) (X : List (V3 ℝ))
    (hX : X.length = 6) : volumeQ dW6 (gaussWedge3x3 line) X = wedgeVol12 (fun i => X.getD i 0) / 12 := by
  rw [volume_of_check (q := 1 / 12) (ref := wedgeT) (n := 6) (mom := wedgeMomQ)
    (ok := fun k => Nat.ble (k.1 + k.2.1) 2 && Nat.ble k.2.2 5) (by decide +kernel) (wedge_moments h hin) X hX
    (by decide +kernel), wedgeT_sum]
  push_cast; ring

/-- A tapered wedge: the top is twice as large as the bottom. -/
def tapered : List (V3 ℝ) := [⟨0, 0, -1⟩, ⟨1, 0, -1⟩, ⟨0, 1, -1⟩, ⟨0, 0, 1⟩, ⟨2, 0, 1⟩, ⟨0, 2, 1⟩]

/-- **C38** is false for `W6`: the rule with two layers uses one height only, and for a tapered wedge (with plane faces)
the volume is wrong. -/
theorem C38_W6_false {inv : List (List ℚ) → Option (List (List ℚ))} (hinv : InvContract inv) {p : ℝ} (w : ℝ)
    (hl : LineExact 3 [(p, w), (-p, w)]) :
    ∃ N dN rule, generate inv (nodesQ lcW6) Shp.baseW6 [.r, .s, .t] = some (N, dN) ∧
      gaussWedge3x2 [(p, w), (-p, w)] = some rule ∧
      volumeQ dN rule tapered ≠ wedgeVol12 (fun i => tapered.getD i 0) / 12 := by
  obtain ⟨N, dN, h, -⟩ := C36_W6 hinv [.r, .s, .t] ℝ
  refine ⟨N, dN, _, h, rfl, ?_⟩
  rw [generated_W6 hinv h, volumeQ_same genDW6_same]
  have hw : w = 1 := by
    have := hl 0 (by omega)
    simp at this
    norm_num at this
    linarith
  have hp : p * p = 1 / 3 := by
    have := hl 2 (by omega)
    rw [integral_pow] at this
    simp [hw] at this
    norm_num at this
    nlinarith
  subst hw
  have hdiv : ∀ (e : PE) (n : Nat) (x : V3 ℝ), (e / n : PE).eval x = ((1 / (n : ℚ) : ℚ) : ℝ) * e.eval x := fun _ _ _ => rfl
  simp only [volumeQ, gaussTri3a, List.map_cons, List.map_nil, List.cons_append, List.nil_append, List.foldl_cons, List.foldl_nil, dW6,
    dshpVals, jacDet3, tapered, hdiv, PE.eval_sub, PE.eval,
    jacCol, List.zip_cons_cons, List.zip_nil_left, List.foldr_cons, List.foldr_nil, List.getD_cons_zero,
    List.getD_cons_succ, det3, add_x, add_y, add_z, smul_x, smul_y, smul_z, zero_x, zero_y, zero_z, wedgeVol12, flux3,
    flux4]
  norm_num
  intro hh
  ring_nf at hh
  nlinarith

/-! ## quadratic cells with straight sides -/

/-- Interpolated columns. -/
def subCheck (D D' : List (List PE)) (W : List (List ℚ)) (n m : Nat) : Bool :=
  (List.range 3).all fun k => (List.range m).all fun j =>
    PE.same (peSum ((List.range n).map fun i => .mul (.c (ent W i j)) (dEnt D i k))) (dEnt D' j k)

theorem jacCol_sub {D D' : List (List PE)} {W : List (List ℚ)} {n m : Nat} (h : subCheck D D' W n m = true)
    (X Y : List (V3 ℝ)) (hX : X.length = n) (hD : D.length = n) (hY : Y.length = m) (hD' : D'.length = m)
    (hXY : ∀ i < n, X.getD i 0 = vsum ((List.range m).map fun j => ((ent W i j : ℚ) : ℝ) • Y.getD j 0)) (x : V3 ℝ)
    (k : Nat) (hk : k < 3) : jacCol X (dshpVals D x) k = jacCol Y (dshpVals D' x) k := by
  simp only [subCheck, List.all_eq_true, List.mem_range] at h
  have he : ∀ j < m, (dEnt D' j k).eval x =
      ((List.range n).map fun i => ((ent W i j : ℚ) : ℝ) * (dEnt D i k).eval x).sum := by
    intro j hj
    rw [← PE.same_sound (h k hk j hj) x, eval_peSum, List.map_map]
    rfl
  rw [jacCol_eq _ _ _ _ (by omega), jacCol_eq _ _ _ _ (by omega), hX, hY]
  have fin : ∀ f : V3 ℝ → ℝ, (∀ l, f (vsum l) = (l.map f).sum) → (∀ (c : ℝ) (v : V3 ℝ), f (c • v) = c * f v) →
      ((List.range n).map fun i => f ((dEnt D i k).eval x • X.getD i 0)).sum =
        ((List.range m).map fun j => f ((dEnt D' j k).eval x • Y.getD j 0)).sum := by
    intro f hf hs
    have e1 : ((List.range n).map fun i => f ((dEnt D i k).eval x • X.getD i 0)) =
        (List.range n).map fun i => ((List.range m).map fun j =>
          (dEnt D i k).eval x * (((ent W i j : ℚ) : ℝ) * f (Y.getD j 0))).sum := by
      apply List.map_congr_left
      intro i hi
      rw [hs, hXY i (List.mem_range.1 hi), hf, List.map_map, ← List.sum_map_mul_left]
      congr 1
      apply List.map_congr_left
      intro j _
      simp only [Function.comp_apply, hs]
    rw [e1, sum_range_swap]
    congr 1
    apply List.map_congr_left
    intro j hj
    rw [hs, he j (List.mem_range.1 hj), ← List.sum_map_mul_right]
    congr 1
    apply List.map_congr_left
    intro i _
    ring
  ext
  · rw [vsum_x, vsum_x, List.map_map, List.map_map]
    exact fin (fun v => v.x) vsum_x fun _ _ => rfl
  · rw [vsum_y, vsum_y, List.map_map, List.map_map]
    exact fin (fun v => v.y) vsum_y fun _ _ => rfl
  · rw [vsum_z, vsum_z, List.map_map, List.map_map]
    exact fin (fun v => v.z) vsum_z fun _ _ => rfl

theorem volumeQ_sub {D D' : List (List PE)} {W : List (List ℚ)} {n m : Nat} (h : subCheck D D' W n m = true)
    (X Y : List (V3 ℝ)) (hX : X.length = n) (hD : D.length = n) (hY : Y.length = m) (hD' : D'.length = m)
    (hXY : ∀ i < n, X.getD i 0 = vsum ((List.range m).map fun j => ((ent W i j : ℚ) : ℝ) • Y.getD j 0))
    (rule : List QP) : volumeQ D rule X = volumeQ D' rule Y := by
  rw [volumeQ_eq, volumeQ_eq]
  congr 1
  funext x
  simp only [jacDet3, jacCol_sub h X Y hX hD hY hD' hXY x _ (show 0 < 3 by omega),
    jacCol_sub h X Y hX hD hY hD' hXY x _ (show 1 < 3 by omega),
    jacCol_sub h X Y hX hD hY hD' hXY x _ (show 2 < 3 by omega)]

/-- Positions of the nodes of a wedge as combinations of corners (four times the coefficients). -/
def w18T : List (List Int) := [
  [4, 0, 0, 0, 0, 0], [0, 4, 0, 0, 0, 0], [0, 0, 4, 0, 0, 0], [0, 0, 0, 4, 0, 0], [0, 0, 0, 0, 4, 0], [0, 0, 0, 0, 0, 4],
  [2, 2, 0, 0, 0, 0], [0, 2, 2, 0, 0, 0], [2, 0, 2, 0, 0, 0], [0, 0, 0, 2, 2, 0], [0, 0, 0, 0, 2, 2], [0, 0, 0, 2, 0, 2],
  [2, 0, 0, 2, 0, 0], [0, 2, 0, 0, 2, 0], [0, 0, 2, 0, 0, 2], [1, 1, 0, 1, 1, 0], [0, 1, 1, 0, 1, 1], [1, 0, 1, 1, 0, 1]]

/-- Quarters. -/
def over4 (T : List (List Int)) : List (List ℚ) := T.map fun row => row.map fun v => mkRat v 4

/-- **C38** `W18` with straight sides, with the rule with three layers. -/
theorem C38_W18 {inv : List (List ℚ) → Option (List (List ℚ))} (hinv : InvContract inv) {line : List (ℝ × ℝ)}
    (h : LineExact 5 line) (hin : ∀ q ∈ line, -1 ≤ q.1 ∧ q.1 ≤ 1) :
    ∃ N dN, generate inv (nodesQ lcW18) Shp.baseW18 [.r, .s, .t] = some (N, dN) ∧
      ∀ X : List (V3 ℝ), X.length = 18 → Straight18 (fun i => X.getD i 0) →
        volumeQ dN (gaussWedge3x3 line) X = wedgeVol12 (fun i => X.getD i 0) / 12 := by
  obtain ⟨N, dN, hg, -⟩ := C36_W18 hinv [.r, .s, .t] ℝ
  refine ⟨N, dN, hg, fun X hX hS => ?_⟩
  rw [generated_W18 hinv hg]
  have hY : (X.take 6).length = 6 := by rw [List.length_take, hX]; rfl
  have hg6 : ∀ i < 6, (X.take 6).getD i 0 = X.getD i 0 := by
    intro i hi
    simp only [List.getD_eq_getElem?_getD, List.getElem?_take, if_pos hi]
  rw [volumeQ_sub (D' := dW6) (W := over4 w18T) (n := 18) (m := 6) (by decide +kernel) X (X.take 6) hX (by decide +kernel)
    hY (by decide +kernel) ?_, wedge_exact h hin _ hY]
  · simp only [wedgeVol12, hg6 0 (by omega), hg6 1 (by omega), hg6 2 (by omega), hg6 3 (by omega), hg6 4 (by omega),
      hg6 5 (by omega)]
  · obtain ⟨s6, s7, s8, s9, s10, s11, s12, s13, s14, s15, s16, s17⟩ := hS
    intro i hi
    simp only [show List.range 6 = [0, 1, 2, 3, 4, 5] from rfl, List.map_cons, List.map_nil, vsum, List.foldr_cons, List.foldr_nil,
      hg6 0 (by omega), hg6 1 (by omega), hg6 2 (by omega), hg6 3 (by omega), hg6 4 (by omega),
      hg6 5 (by omega)]
    interval_cases i <;> (try simp only [s6, s7, s8, s9, s10, s11, s12, s13, s14, s15, s16, s17]) <;>
      simp only [ent, over4, w18T, List.map_cons, List.map_nil, List.getD_cons_zero, List.getD_cons_succ, Rat.mkRat_eq_div] <;>
      ext <;> simp [mid, mid4] <;> ring

/-- Positions of the nodes of a hexahedron as combinations of corners (eight times the coefficients). -/
def h27T : List (List Int) := [
  [8, 0, 0, 0, 0, 0, 0, 0],
  [0, 8, 0, 0, 0, 0, 0, 0],
  [0, 0, 8, 0, 0, 0, 0, 0],
  [0, 0, 0, 8, 0, 0, 0, 0],
  [0, 0, 0, 0, 8, 0, 0, 0],
  [0, 0, 0, 0, 0, 8, 0, 0],
  [0, 0, 0, 0, 0, 0, 8, 0],
  [0, 0, 0, 0, 0, 0, 0, 8],
  [4, 4, 0, 0, 0, 0, 0, 0],
  [0, 4, 4, 0, 0, 0, 0, 0],
  [0, 0, 4, 4, 0, 0, 0, 0],
  [4, 0, 0, 4, 0, 0, 0, 0],
  [0, 0, 0, 0, 4, 4, 0, 0],
  [0, 0, 0, 0, 0, 4, 4, 0],
  [0, 0, 0, 0, 0, 0, 4, 4],
  [0, 0, 0, 0, 4, 0, 0, 4],
  [4, 0, 0, 0, 4, 0, 0, 0],
  [0, 4, 0, 0, 0, 4, 0, 0],
  [0, 0, 4, 0, 0, 0, 4, 0],
  [0, 0, 0, 4, 0, 0, 0, 4],
  [2, 0, 0, 2, 2, 0, 0, 2],
  [0, 2, 2, 0, 0, 2, 2, 0],
  [2, 2, 0, 0, 2, 2, 0, 0],
  [0, 0, 2, 2, 0, 0, 2, 2],
  [2, 2, 2, 2, 0, 0, 0, 0],
  [0, 0, 0, 0, 2, 2, 2, 2],
  [1, 1, 1, 1, 1, 1, 1, 1]]

/-- **C38** `H27` with straight sides (trilinear hexahedra), any interval rule exact up to degree 2. -/
theorem C38_H27 {line : List (ℝ × ℝ)} (h : LineExact 2 line) (X : List (V3 ℝ)) (hX : X.length = 27)
    (hS : Straight27 fun i => X.getD i 0)
    (hc : X.getD 26 0 = (1 / 2 : ℝ) • (mid4 (X.getD 0 0) (X.getD 1 0) (X.getD 2 0) (X.getD 3 0) +
      mid4 (X.getD 4 0) (X.getD 5 0) (X.getD 6 0) (X.getD 7 0))) :
    volumeQ Shp.dshpH27 (gaussHex line line line) X = hexVol12 (fun i => X.getD i 0) / 12 := by
  have hY : (X.take 8).length = 8 := by rw [List.length_take, hX]; rfl
  have hg8 : ∀ i < 8, (X.take 8).getD i 0 = X.getD i 0 := by
    intro i hi
    simp only [List.getD_eq_getElem?_getD, List.getElem?_take, if_pos hi]
  rw [volumeQ_sub (D' := Shp.dshpH8) (W := over8 h27T) (n := 27) (m := 8) (by decide +kernel) X (X.take 8) hX
    (by decide +kernel) hY (by decide +kernel) ?_, C38_H8 h _ hY]
  · simp only [hexVol12, hg8 0 (by omega), hg8 1 (by omega), hg8 2 (by omega), hg8 3 (by omega), hg8 4 (by omega),
      hg8 5 (by omega), hg8 6 (by omega), hg8 7 (by omega)]
  · obtain ⟨s8, s9, s10, s11, s12, s13, s14, s15, s16, s17, s18, s19, s20, s21, s22, s23, s24, s25⟩ := hS
    intro i hi
    simp only [show List.range 8 = [0, 1, 2, 3, 4, 5, 6, 7] from rfl, List.map_cons, List.map_nil, vsum, List.foldr_cons,
      List.foldr_nil, hg8 0 (by omega), hg8 1 (by omega), hg8 2 (by omega), hg8 3 (by omega), hg8 4 (by omega),
      hg8 5 (by omega), hg8 6 (by omega), hg8 7 (by omega)]
    interval_cases i <;> (try simp only [s8, s9, s10, s11, s12, s13, s14, s15, s16, s17, s18, s19, s20, s21, s22, s23, s24,
      s25, hc]) <;>
      simp only [ent, over8, h27T, List.map_cons, List.map_nil, List.getD_cons_zero, List.getD_cons_succ, Rat.mkRat_eq_div] <;>
      ext <;> simp [mid, mid4] <;> ring

/-- The tapered wedge has exact volume 7/3. -/
example : wedgeVol12 (fun i => tapered.getD i 0) / 12 = 7 / 3 := by
  simp [wedgeVol12, flux4, flux3, det3, tapered]; norm_num

/-- The hexahedron with corners at the nodes of the master cell, scaled by one half, has volume one. -/
example {line : List (ℝ × ℝ)} (h : LineExact 2 line) :
    volumeQ Shp.dshpH8 (gaussHex line line line) (lcH8.map fun p => (1 / 2 : ℝ) • half p) = 1 := by
  rw [C38_H8 h _ rfl]
  simp [hexVol12, flux4, det3, lcH8, half]; norm_num

end PM
