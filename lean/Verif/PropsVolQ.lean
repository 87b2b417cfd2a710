import Verif.PropsQuad
import Verif.PropsGenShape
import Verif.PropsVolumes

/-!
# C38: areas and volumes by quadrature

The exact volume of a hexahedron (wedge) with bilinear faces is `hexVol12 / 12` (`wedgeVol12 / 12`), see
`PropsVolumes.lean`; of an affine cell it is the determinant of the affine map times the volume of the master cell.
-/

namespace PM

open V3

/-! ## sums over lists -/

theorem zip_map_range {α β γ : Type} (l : List α) (m : List β) (h : l.length = m.length) (a : α) (b : β) (f : α × β → γ) :
    (l.zip m).map f = (List.range l.length).map fun i => f (l.getD i a, m.getD i b) := by
  apply List.ext_getElem
  · simp [h]
  · intro i h1 h2
    have hl : i < l.length := by simpa using h2
    have hm : i < m.length := by omega
    simp [List.getElem_zip, List.getElem?_eq_getElem hl, List.getElem?_eq_getElem hm]

/-- Entry of a table of expressions. -/
def dEnt (dN : List (List PE)) (i k : Nat) : PE := (dN.getD i []).getD k (.c 0)

theorem dshpVals_getD {K : Type} [Field K] (dN : List (List PE)) (x : V3 K) (i k : Nat) :
    ((dshpVals dN x).getD i []).getD k 0 = (dEnt dN i k).eval x := by
  simp only [dshpVals, dEnt, List.getD_eq_getElem?_getD, List.getElem?_map]
  cases dN[i]? with
  | none => simp [PE.eval]
  | some row =>
    simp only [Option.map_some, Option.getD_some, List.getElem?_map]
    cases row[k]? with
    | none => simp [PE.eval]
    | some e => simp

/-- Sum of vectors. -/
def vsum {K : Type} [Field K] (l : List (V3 K)) : V3 K := l.foldr (· + ·) 0

theorem vsum_x {K : Type} [Field K] (l : List (V3 K)) : (vsum l).x = (l.map fun v => v.x).sum := by
  induction l with
  | nil => rfl
  | cons a l ih => simp only [vsum, List.foldr_cons, add_x, List.map_cons, List.sum_cons]; rw [← ih]; rfl

theorem vsum_y {K : Type} [Field K] (l : List (V3 K)) : (vsum l).y = (l.map fun v => v.y).sum := by
  induction l with
  | nil => rfl
  | cons a l ih => simp only [vsum, List.foldr_cons, add_y, List.map_cons, List.sum_cons]; rw [← ih]; rfl

theorem vsum_z {K : Type} [Field K] (l : List (V3 K)) : (vsum l).z = (l.map fun v => v.z).sum := by
  induction l with
  | nil => rfl
  | cons a l ih => simp only [vsum, List.foldr_cons, add_z, List.map_cons, List.sum_cons]; rw [← ih]; rfl

/-- The columns of the Jacobian matrix as sums. -/
theorem jacCol_eq {K : Type} [Field K] (X : List (V3 K)) (dN : List (List PE)) (x : V3 K) (d : Nat)
    (h : X.length = dN.length) :
    jacCol X (dshpVals dN x) d = vsum ((List.range X.length).map fun i => (dEnt dN i d).eval x • X.getD i 0) := by
  have hl : X.length = (dshpVals dN x).length := by simpa [dshpVals] using h
  have e : jacCol X (dshpVals dN x) d = vsum ((X.zip (dshpVals dN x)).map fun q => (q.2.getD d 0) • q.1) := by
    rw [jacCol, vsum, List.foldr_map]
  rw [e, zip_map_range X (dshpVals dN x) hl 0 []]
  simp only [dshpVals_getD]

/-! ## affine cells -/

theorem hasDerivAt_list_sum {α : Type} (l : List α) (f : α → ℝ → ℝ) (f' : α → ℝ) (x : ℝ)
    (h : ∀ m ∈ l, HasDerivAt (f m) (f' m) x) : HasDerivAt (fun v => (l.map fun m => f m v).sum) (l.map f').sum x := by
  induction l with
  | nil => simpa using hasDerivAt_const x (0 : ℝ)
  | cons m l ih =>
    simp only [List.map_cons, List.sum_cons]
    exact (h m List.mem_cons_self).fun_add (ih fun m hm => h m (List.mem_cons_of_mem _ hm))

/-- The derivative of the reproduced linear function. -/
theorem col_linear {dim : Nat} {lc : List (V3 Int)} {N : List PE} {dN : List (List PE)} (hN : Interpolates ℝ dim lc N)
    (hd : Derivatives dim N dN) (a b c d : ℝ) (hc : dim < 2 → c = 0) (hd' : dim < 3 → d = 0) (x : V3 ℝ) (k : Nat) (dir : Dir)
    (hk : k < dim) (hdir : [Dir.r, Dir.s, Dir.t][k]? = some dir) :
    ((List.range lc.length).map fun i => (dEnt dN i k).eval x * linVal a b c d (half (lc.getD i 0))).sum =
      (⟨b, c, d⟩ : V3 ℝ).coord dir := by
  have h1 : HasDerivAt (fun v => ((List.range lc.length).map fun i =>
      (N.getD i (.c 0)).eval (x.upd dir v) * linVal a b c d (half (lc.getD i 0))).sum)
      ((List.range lc.length).map fun i => (dEnt dN i k).eval x * linVal a b c d (half (lc.getD i 0))).sum (x.coord dir) := by
    apply hasDerivAt_list_sum
    intro i hi
    apply HasDerivAt.mul_const
    have hi' : i < N.length := by rw [hN.len]; exact List.mem_range.1 hi
    have hi2 : i < dN.length := by rw [hd.len]; exact hi'
    have hw : dN[i].length = dim := hd.width _ (List.getElem_mem hi2)
    have hk' : k < dN[i].length := by omega
    have := hd.deriv i k N[i] dN[i][k] dN[i] dir (List.getElem?_eq_getElem hi') (List.getElem?_eq_getElem hi2)
      (List.getElem?_eq_getElem hk') hdir x
    unfold IsPartial at this
    simpa [dEnt, List.getD_eq_getElem?_getD, List.getElem?_eq_getElem hi', List.getElem?_eq_getElem hi2,
      List.getElem?_eq_getElem hk'] using this
  have h2 : (fun v => ((List.range lc.length).map fun i =>
      (N.getD i (.c 0)).eval (x.upd dir v) * linVal a b c d (half (lc.getD i 0))).sum) =
      fun v => linVal a b c d (x.upd dir v) := by
    funext v
    rw [← hN.linear a b c d (x.upd dir v) hc hd', zip_map_range N lc hN.len (.c 0) 0, hN.len]
  rw [h2] at h1
  have h3 : HasDerivAt (fun v => linVal a b c d (x.upd dir v)) ((⟨b, c, d⟩ : V3 ℝ).coord dir) (x.coord dir) := by
    cases dir
    · have := ((hasDerivAt_id' x.x).const_mul b).const_add (a + c * x.y + d * x.z)
      simp only [mul_one] at this
      refine this.congr_of_eventuallyEq (Filter.Eventually.of_forall fun v => ?_)
      simp [linVal, V3.upd]; ring
    · have := ((hasDerivAt_id' x.y).const_mul c).const_add (a + b * x.x + d * x.z)
      simp only [mul_one] at this
      refine this.congr_of_eventuallyEq (Filter.Eventually.of_forall fun v => ?_)
      simp [linVal, V3.upd]; ring
    · have := ((hasDerivAt_id' x.z).const_mul d).const_add (a + b * x.x + c * x.y)
      simp only [mul_one] at this
      refine this.congr_of_eventuallyEq (Filter.Eventually.of_forall fun v => ?_)
      simp [linVal, V3.upd]
  exact h1.unique h3

/-- The columns of the Jacobian matrix of an affine cell are those of the map. -/
theorem jacCol_affine {lc : List (V3 Int)} {N : List PE} {dN : List (List PE)} (hN : Interpolates ℝ 3 lc N)
    (hd : Derivatives 3 N dN) (A : Aff ℝ) (x : V3 ℝ) :
    jacCol (lc.map fun p => A.app (half p)) (dshpVals dN x) 0 = A.a ∧
    jacCol (lc.map fun p => A.app (half p)) (dshpVals dN x) 1 = A.b ∧
    jacCol (lc.map fun p => A.app (half p)) (dshpVals dN x) 2 = A.c := by
  have hl : (lc.map fun p => A.app (half p)).length = dN.length := by rw [List.length_map, hd.len, hN.len]
  have key : ∀ (k : Nat) (dir : Dir), k < 3 → [Dir.r, Dir.s, Dir.t][k]? = some dir →
      jacCol (lc.map fun p => A.app (half p)) (dshpVals dN x) k =
        ⟨(⟨A.a.x, A.b.x, A.c.x⟩ : V3 ℝ).coord dir, (⟨A.a.y, A.b.y, A.c.y⟩ : V3 ℝ).coord dir,
          (⟨A.a.z, A.b.z, A.c.z⟩ : V3 ℝ).coord dir⟩ := by
    intro k dir hk hdir
    rw [jacCol_eq _ _ _ _ hl]
    have ex : ∀ i, i < lc.length → (lc.map fun p => A.app (half p : V3 ℝ)).getD i 0 = A.app (half (lc.getD i 0)) := by
      intro i hi
      simp [List.getD_eq_getElem?_getD, List.getElem?_eq_getElem hi]
    ext
    · rw [vsum_x, List.map_map, List.length_map,
        ← col_linear hN hd A.o.x A.a.x A.b.x A.c.x (by omega) (by omega) x k dir hk hdir]
      congr 1
      apply List.map_congr_left
      intro i hi
      simp only [Function.comp_apply, smul_x, ex i (List.mem_range.1 hi)]
      simp [Aff.app, linVal]; ring_nf; simp
    · rw [vsum_y, List.map_map, List.length_map,
        ← col_linear hN hd A.o.y A.a.y A.b.y A.c.y (by omega) (by omega) x k dir hk hdir]
      congr 1
      apply List.map_congr_left
      intro i hi
      simp only [Function.comp_apply, smul_y, ex i (List.mem_range.1 hi)]
      simp [Aff.app, linVal]; ring_nf; simp
    · rw [vsum_z, List.map_map, List.length_map,
        ← col_linear hN hd A.o.z A.a.z A.b.z A.c.z (by omega) (by omega) x k dir hk hdir]
      congr 1
      apply List.map_congr_left
      intro i hi
      simp only [Function.comp_apply, smul_z, ex i (List.mem_range.1 hi)]
      simp [Aff.app, linVal]; ring_nf; simp
  exact ⟨key 0 .r (by omega) rfl, key 1 .s (by omega) rfl, key 2 .t (by omega) rfl⟩

theorem volumeQ_eq (dN : List (List PE)) (rule : List QP) (X : List (V3 ℝ)) :
    volumeQ dN rule X = quad rule fun x => jacDet3 X (dshpVals dN x) := by
  rw [volumeQ, quad, List.sum_eq_foldl, List.foldl_map]

theorem areaQ_eq (dN : List (List PE)) (rule : List QP) (X : List (V3 ℝ)) :
    areaQ dN rule X = quad rule fun x => jacDet2 X (dshpVals dN x) := by
  rw [areaQ, quad, List.sum_eq_foldl, List.foldl_map]

/-- **C38** affine cells of any type: the determinant of the map times the sum of the weights. -/
theorem C38_affine {lc : List (V3 Int)} {N : List PE} {dN : List (List PE)} (hN : Interpolates ℝ 3 lc N)
    (hd : Derivatives 3 N dN) (rule : List QP) (A : Aff ℝ) :
    volumeQ dN rule (lc.map fun p => A.app (half p)) = A.det * (rule.map fun q => q.w).sum := by
  rw [volumeQ_eq, quad, ← List.sum_map_mul_left]
  congr 1
  apply List.map_congr_left
  intro q _
  obtain ⟨h0, h1, h2⟩ := jacCol_affine hN hd A q.p
  rw [jacDet3, h0, h1, h2, Aff.det]; ring

/-- The columns of the Jacobian matrix do not depend on the position. -/
theorem jacCol_translate {dim : Nat} {lc : List (V3 Int)} {N : List PE} {dN : List (List PE)} (hN : Interpolates ℝ dim lc N)
    (hd : Derivatives dim N dN) (X : List (V3 ℝ)) (hX : X.length = lc.length) (v : V3 ℝ) (x : V3 ℝ) (k : Nat) (hk : k < dim)
    (hk3 : k < 3) :
    jacCol (X.map fun p => p + v) (dshpVals dN x) k = jacCol X (dshpVals dN x) k := by
  have hl : X.length = dN.length := by rw [hX, hd.len, hN.len]
  have hdir : ∃ dir, [Dir.r, Dir.s, Dir.t][k]? = some dir := ⟨_, List.getElem?_eq_getElem (by simpa using hk3)⟩
  obtain ⟨dir, hdir⟩ := hdir
  have h0 := col_linear hN hd 1 0 0 0 (fun _ => rfl) (fun _ => rfl) x k dir hk hdir
  have h0' : ((List.range X.length).map fun i => (dEnt dN i k).eval x).sum = 0 := by
    rw [hX]
    have : ((⟨0, 0, 0⟩ : V3 ℝ)).coord dir = 0 := by cases dir <;> rfl
    rw [this] at h0
    simpa [linVal] using h0
  rw [jacCol_eq _ _ _ _ (by simpa using hl), jacCol_eq _ _ _ _ hl, List.length_map]
  have ex : ∀ i, i < X.length → (X.map fun p => p + v).getD i 0 = X.getD i 0 + v := by
    intro i hi
    simp [List.getD_eq_getElem?_getD, List.getElem?_eq_getElem hi]
  have fin : ∀ (f : V3 ℝ → ℝ), (∀ p, f (p + v) = f p + f v) →
      ((List.range X.length).map fun i => (dEnt dN i k).eval x * f ((X.map fun p => p + v).getD i 0)).sum =
        ((List.range X.length).map fun i => (dEnt dN i k).eval x * f (X.getD i 0)).sum := by
    intro f hf
    have : ((List.range X.length).map fun i => (dEnt dN i k).eval x * f ((X.map fun p => p + v).getD i 0)).sum =
        ((List.range X.length).map fun i => (dEnt dN i k).eval x * f (X.getD i 0) + (dEnt dN i k).eval x * f v).sum := by
      congr 1
      apply List.map_congr_left
      intro i hi
      rw [ex i (List.mem_range.1 hi), hf]; ring
    rw [this, List.sum_map_add, List.sum_map_mul_right, h0']; ring
  ext
  · rw [vsum_x, vsum_x, List.map_map, List.map_map]; exact fin (fun p => p.x) fun _ => rfl
  · rw [vsum_y, vsum_y, List.map_map, List.map_map]; exact fin (fun p => p.y) fun _ => rfl
  · rw [vsum_z, vsum_z, List.map_map, List.map_map]; exact fin (fun p => p.z) fun _ => rfl

/-- **C38** volumes are invariant under translations, for any cell and rule. -/
theorem C38_translate {lc : List (V3 Int)} {N : List PE} {dN : List (List PE)} (hN : Interpolates ℝ 3 lc N)
    (hd : Derivatives 3 N dN) (rule : List QP) (X : List (V3 ℝ)) (hX : X.length = lc.length) (v : V3 ℝ) :
    volumeQ dN rule (X.map fun p => p + v) = volumeQ dN rule X := by
  rw [volumeQ_eq, volumeQ_eq]
  congr 1
  funext x
  simp only [jacDet3, jacCol_translate hN hd X hX v x _ (show 0 < 3 by omega) (by omega),
    jacCol_translate hN hd X hX v x _ (show 1 < 3 by omega) (by omega),
    jacCol_translate hN hd X hX v x _ (show 2 < 3 by omega) (by omega)]

/-- **C38** areas are invariant under translations. -/
theorem C38_translate_area {lc : List (V3 Int)} {N : List PE} {dN : List (List PE)} (hN : Interpolates ℝ 2 lc N)
    (hd : Derivatives 2 N dN) (rule : List QP) (X : List (V3 ℝ)) (hX : X.length = lc.length) (v : V3 ℝ) :
    areaQ dN rule (X.map fun p => p + v) = areaQ dN rule X := by
  rw [areaQ_eq, areaQ_eq]
  congr 1
  funext x
  simp only [jacDet2, jacCol_translate hN hd X hX v x _ (show 0 < 2 by omega) (by omega),
    jacCol_translate hN hd X hX v x _ (show 1 < 2 by omega) (by omega)]

/-! ## the cells with hand-written functions or rules without parameters -/

/-- The weights of rules that are exact for constants sum to the measure. -/
theorem weights_of_exact {I : (V3 ℝ → ℝ) → ℝ} {P : Nat → Nat → Nat → Prop} {rule : List QP} (h : ExactFor I P rule)
    (h0 : P 0 0 0) : (rule.map fun q => q.w).sum = I (polyVal [⟨1, 0, 0, 0⟩]) := by
  have := h [⟨1, 0, 0, 0⟩] (by simpa using h0)
  rw [← this, quad]
  simp [polyVal]

/-- **C38** `TET4`: any tetrahedron, a sixth of the triple product of its edges. -/
theorem C38_TET4 (A : Aff ℝ) :
    volumeQ Shp.dshpTET4 gaussTet1 (lcTET4.map fun p => A.app (half p)) = A.det / 6 := by
  rw [C38_affine (C34_TET4 ℝ) C35_TET4]
  simp [gaussTet1]; ring

/-- Generated derivatives in the form used here. -/
theorem derivatives_of_generate {inv : List (List ℚ) → Option (List (List ℚ))} (hinv : InvContract inv)
    {nodes : List (V3 ℚ)} {monoms : List PE} {N : List PE} {dN : List (List PE)}
    (h : generate inv nodes monoms [.r, .s, .t] = some (N, dN)) : Derivatives 3 N dN := by
  obtain ⟨h1, h2⟩ := C36_derivatives hinv h
  refine ⟨h1, ?_, h2⟩
  obtain ⟨-, -, rfl⟩ := generate_some hinv h
  intro row hrow
  obtain ⟨f, -, rfl⟩ := List.mem_map.1 hrow
  rfl

/-- **C38** `TET10` with straight sides (nodes in the middle of the edges): a sixth of the triple product. -/
theorem C38_TET10 {inv : List (List ℚ) → Option (List (List ℚ))} (hinv : InvContract inv) :
    ∃ N dN, generate inv (nodesQ lcTET10) Shp.baseTET10 [.r, .s, .t] = some (N, dN) ∧
      ∀ A : Aff ℝ, volumeQ dN gaussTet4 (lcTET10.map fun p => A.app (half p)) = A.det / 6 := by
  obtain ⟨N, dN, h, hi⟩ := C36_TET10 hinv [.r, .s, .t] ℝ
  refine ⟨N, dN, h, fun A => ?_⟩
  rw [C38_affine hi (derivatives_of_generate hinv h)]
  simp [gaussTet4]; ring

/-- **C38** `W6`, what holds: affine wedges (prisms with parallel edges). Missing: tapered wedges, for which the claim is
false, see `C38_W6_false`. -/
theorem C38_W6_partial {inv : List (List ℚ) → Option (List (List ℚ))} (hinv : InvContract inv) {p0 p1 : ℝ × ℝ}
    (hl : LineExact 0 [p0, p1]) :
    ∃ N dN rule, generate inv (nodesQ lcW6) Shp.baseW6 [.r, .s, .t] = some (N, dN) ∧ gaussWedge3x2 [p0, p1] = some rule ∧
      ∀ A : Aff ℝ, volumeQ dN rule (lcW6.map fun p => A.app (half p)) = A.det := by
  obtain ⟨N, dN, h, hi⟩ := C36_W6 hinv [.r, .s, .t] ℝ
  refine ⟨N, dN, _, h, rfl, fun A => ?_⟩
  rw [C38_affine hi (derivatives_of_generate hinv h)]
  have := hl 0 (by omega)
  simp at this
  simp [gaussTri3a]
  linear_combination (A.det / 2) * this

/-- **C38** `T6`: nodes anywhere on straight sides. The area is that of the triangle through the corners. -/
theorem C38_T6 (p q r : V3 ℝ) (α β γ : ℝ) (m1 m2 m3 : V3 ℝ) (h1 : m1 = p + α • (q - p)) (h2 : m2 = q + β • (r - q))
    (h3 : m3 = r + γ • (p - r)) :
    2 * areaQ Shp.dshpT6 gaussTri3a [p, q, r, m1, m2, m3] = area2 ⟨0, 0, 1⟩ p q r := by
  subst h1 h2 h3
  have hs : ∀ (m : Nat) (b : Bool) (e : Nat) (x : V3 ℝ), (OfScientific.ofScientific m b e : PE).eval x =
      ((OfScientific.ofScientific m b e : ℚ) : ℝ) := fun _ _ _ _ => rfl
  simp only [areaQ, gaussTri3a, List.foldl_cons, List.foldl_nil, Shp.dshpT6, dshpVals, List.map_cons, List.map_nil, jacDet2,
    jacCol, List.zip_cons_cons, List.zip_nil_left, List.foldr_cons, List.foldr_nil, List.getD_cons_zero,
    List.getD_cons_succ, PE.eval_sub, PE.eval, hs, area2, det3, add_x, add_y, sub_x, sub_y, sub_z, smul_x,
    smul_y, zero_x, zero_y]
  norm_num
  ring

/-- **C38** `T6` in space: only the first two coordinates are used, the area of a triangle in another plane is wrong. -/
theorem C38_T6_space_false : ∃ p q r : V3 ℝ,
    areaQ Shp.dshpT6 gaussTri3a [p, q, r, mid p q, mid q r, mid r p] = 0 ∧ area2 ⟨0, -1, 0⟩ p q r = 1 := by
  refine ⟨⟨0, 0, 0⟩, ⟨1, 0, 0⟩, ⟨0, 0, 1⟩, ?_, ?_⟩
  · have h := C38_T6 ⟨0, 0, 0⟩ ⟨1, 0, 0⟩ ⟨0, 0, 1⟩ (1 / 2) (1 / 2) (1 / 2) (mid ⟨0, 0, 0⟩ ⟨1, 0, 0⟩) (mid ⟨1, 0, 0⟩ ⟨0, 0, 1⟩)
      (mid ⟨0, 0, 1⟩ ⟨0, 0, 0⟩) (by ext <;> simp [mid]) (by ext <;> simp [mid]; norm_num) (by ext <;> simp [mid]; norm_num)
    have : area2 ⟨0, 0, 1⟩ (⟨0, 0, 0⟩ : V3 ℝ) ⟨1, 0, 0⟩ ⟨0, 0, 1⟩ = 0 := by simp [area2, det3]
    rw [this] at h
    linarith
  · simp [area2, det3]

/-! ## expansion into triple products of nodes -/

/-- A combination of values of a function on triples. -/
def nfSum {K : Type} [Field K] (F : Nat × Nat × Nat → K) (p : PE.NF) : K := (p.map fun m => (m.2 : K) * F m.1).sum

section
variable {K : Type} [Field K] [CharZero K] (F : Nat × Nat × Nat → K)

omit [CharZero K] in
theorem nfSum_cons (m : (Nat × Nat × Nat) × ℚ) (p : PE.NF) : nfSum F (m :: p) = (m.2 : K) * F m.1 + nfSum F p := by
  simp [nfSum]

theorem nfSum_addTerm (k : Nat × Nat × Nat) (q : ℚ) (p : PE.NF) :
    nfSum F (PE.addTerm k q p) = (q : K) * F k + nfSum F p := by
  induction p with
  | nil =>
    rw [PE.addTerm]
    split
    · rename_i h; rw [PE.cast_of_num (K := K) h]; simp [nfSum]
    · simp [nfSum]
  | cons m p ih =>
    obtain ⟨k', q'⟩ := m
    rw [PE.addTerm]
    by_cases h1 : PE.keyEq k k' = true
    · rw [if_pos h1]
      have hk := PE.keyEq_iff h1
      subst hk
      by_cases h2 : ((q + q').num == 0) = true
      · rw [if_pos h2, nfSum_cons]
        have := PE.cast_of_num (K := K) h2
        rw [Rat.cast_add] at this
        simp only
        linear_combination (-F k) * this
      · rw [if_neg h2, nfSum_cons, nfSum_cons]
        simp only [Rat.cast_add]
        ring
    · rw [if_neg h1]
      by_cases h2 : PE.keyLt k k' = true
      · rw [if_pos h2]
        by_cases h3 : (q.num == 0) = true
        · rw [if_pos h3, PE.cast_of_num (K := K) h3]; ring
        · rw [if_neg h3, nfSum_cons]
      · rw [if_neg h2, nfSum_cons, ih, nfSum_cons]; ring

end

/-- Value of a moment functional on a normal form. -/
def momNF (mom : Nat × Nat × Nat → ℚ) (p : PE.NF) : ℚ := p.foldr (fun m acc => m.2 * mom m.1 + acc) 0

/-- The quadrature of an expression from the moments. -/
theorem quad_nf {rule : List QP} {mom : Nat × Nat × Nat → ℚ} {ok : Nat × Nat × Nat → Bool}
    (h : ∀ k, ok k = true → quad rule (fun x => PE.monoVal x k) = (mom k : ℝ)) (e : PE)
    (he : e.nf.all (fun m => ok m.1) = true) : quad rule (fun x => e.eval x) = (momNF mom e.nf : ℝ) := by
  have h1 : (fun x : V3 ℝ => e.eval x) = fun x => PE.nfEval x e.nf := by
    funext x; rw [PE.nf_sound]
  rw [h1]
  generalize e.nf = p at he
  clear h1
  induction p with
  | nil => simp [quad, PE.nfEval, momNF]
  | cons m p ih =>
    rw [List.all_cons, Bool.and_eq_true] at he
    have e1 : quad rule (fun x => PE.nfEval x (m :: p)) =
        (m.2 : ℝ) * quad rule (fun x => PE.monoVal x m.1) + quad rule (fun x => PE.nfEval x p) := by
      simp only [quad, PE.nfEval_cons]
      clear ih h he
      induction rule with
      | nil => simp
      | cons q rule ih =>
        simp only [List.map_cons, List.sum_cons]
        rw [ih]; ring
    rw [e1, h m.1 he.1, ih he.2, momNF, momNF, List.foldr_cons]
    push_cast
    ring

/-- The triple product of three nodes. -/
def tri3 (X : Nat → V3 ℝ) (k : Nat × Nat × Nat) : ℝ := det3 (X k.1) (X k.2.1) (X k.2.2)

/-- Adds a multiple of a triple product, with the nodes in increasing order. -/
def altAdd (a b c : Nat) (q : ℚ) (p : PE.NF) : PE.NF :=
  if a == b || b == c || a == c then p
  else if Nat.blt a b then
    if Nat.blt b c then PE.addTerm (a, b, c) q p
    else if Nat.blt a c then PE.addTerm (a, c, b) (-q) p
    else PE.addTerm (c, a, b) q p
  else
    if Nat.blt a c then PE.addTerm (b, a, c) (-q) p
    else if Nat.blt b c then PE.addTerm (b, c, a) q p
    else PE.addTerm (c, b, a) (-q) p

theorem nfSum_altAdd (X : Nat → V3 ℝ) (a b c : Nat) (q : ℚ) (p : PE.NF) :
    nfSum (tri3 X) (altAdd a b c q p) = (q : ℝ) * tri3 X (a, b, c) + nfSum (tri3 X) p := by
  rw [altAdd]
  split
  · rename_i h
    simp only [Bool.or_eq_true, beq_iff_eq] at h
    have : tri3 X (a, b, c) = 0 := by
      rcases h with (rfl | rfl) | rfl <;> simp [tri3, det3] <;> ring
    rw [this]; ring
  · split <;> split <;> (try split) <;> rw [nfSum_addTerm] <;> simp only [tri3, Rat.cast_neg] <;> simp only [det3] <;> ring

/-- Triples of numbers below `n`. -/
def triples (n : Nat) : List (Nat × Nat × Nat) :=
  (List.range n).flatMap fun a => (List.range n).flatMap fun b => (List.range n).map fun c => (a, b, c)

/-- The product of derivatives belonging to a triple. -/
def dProd (dN : List (List PE)) (k : Nat × Nat × Nat) : PE :=
  .mul (.mul (dEnt dN k.1 0) (dEnt dN k.2.1 1)) (dEnt dN k.2.2 2)

theorem sum_triples (n : Nat) (f : Nat × Nat × Nat → ℝ) : ((triples n).map f).sum =
    ((List.range n).map fun a => ((List.range n).map fun b => ((List.range n).map fun c => f (a, b, c)).sum).sum).sum := by
  rw [triples, sum_flatMap_map]
  congr 1
  apply List.map_congr_left
  intro a _
  rw [sum_flatMap_map]
  congr 1
  apply List.map_congr_left
  intro b _
  rw [List.map_map]
  rfl

/-- A triple product of sums. -/
theorem det3_vsum (n : Nat) (f g h : Nat → V3 ℝ) :
    det3 (vsum ((List.range n).map f)) (vsum ((List.range n).map g)) (vsum ((List.range n).map h)) =
      ((triples n).map fun k => det3 (f k.1) (g k.2.1) (h k.2.2)).sum := by
  have hv : ∀ (l : List Nat) (f : Nat → V3 ℝ) (u w : V3 ℝ), det3 (vsum (l.map f)) u w = (l.map fun a => det3 (f a) u w).sum := by
    intro l f u w
    induction l with
    | nil => simp [vsum, det3]
    | cons a l ih =>
      simp only [List.map_cons, List.sum_cons, vsum, List.foldr_cons] at ih ⊢
      rw [← ih]; simp [det3]; ring
  have c1 : ∀ u v w : V3 ℝ, det3 u v w = det3 v w u := by intro u v w; simp [det3]; ring
  rw [sum_triples, hv]
  congr 1
  apply List.map_congr_left
  intro a _
  rw [c1, hv]
  congr 1
  apply List.map_congr_left
  intro b _
  rw [c1, hv]
  congr 1
  apply List.map_congr_left
  intro c _
  rw [c1]

/-- The volume as a combination of triple products of nodes. -/
theorem volumeQ_expand (dN : List (List PE)) (rule : List QP) (X : List (V3 ℝ)) (h : X.length = dN.length) :
    volumeQ dN rule X = ((triples X.length).map fun k =>
      quad rule (fun x => (dProd dN k).eval x) * tri3 (fun i => X.getD i 0) k).sum := by
  rw [volumeQ_eq]
  have e : (fun x : V3 ℝ => jacDet3 X (dshpVals dN x)) = fun x => ((triples X.length).map fun k =>
      (dProd dN k).eval x * tri3 (fun i => X.getD i 0) k).sum := by
    funext x
    rw [jacDet3, jacCol_eq _ _ _ _ h, jacCol_eq _ _ _ _ h, jacCol_eq _ _ _ _ h, det3_vsum]
    congr 1
    apply List.map_congr_left
    intro k _
    simp only [dProd, PE.eval, tri3, det3, smul_x, smul_y, smul_z]
    ring
  rw [e]
  generalize triples X.length = l
  induction l with
  | nil => simp [quad]
  | cons k l ih =>
    simp only [List.map_cons, List.sum_cons]
    rw [← ih]
    simp only [quad]
    clear ih e
    induction rule with
    | nil => simp
    | cons q rule ih =>
      simp only [List.map_cons, List.sum_cons]
      rw [ih]; ring

/-- The coefficients of triple products in the volume. -/
def volNF (dN : List (List PE)) (mom : Nat × Nat × Nat → ℚ) : List (Nat × Nat × Nat) → PE.NF
  | [] => []
  | k :: l => altAdd k.1 k.2.1 k.2.2 (momNF mom (dProd dN k).nf) (volNF dN mom l)

/-- A given combination of triple products. -/
def refNF (q : ℚ) : List (Nat × Nat × Nat) → PE.NF → PE.NF
  | [], p => p
  | k :: l, p => altAdd k.1 k.2.1 k.2.2 q (refNF q l p)

theorem nfSum_refNF (X : Nat → V3 ℝ) (q : ℚ) (l : List (Nat × Nat × Nat)) (p : PE.NF) :
    nfSum (tri3 X) (refNF q l p) = (q : ℝ) * (l.map (tri3 X)).sum + nfSum (tri3 X) p := by
  induction l with
  | nil => simp [refNF]
  | cons k l ih => rw [refNF, nfSum_altAdd, ih, List.map_cons, List.sum_cons]; ring

/-- The check that a volume is a given combination of triple products. -/
def volCheck (dN : List (List PE)) (mom : Nat × Nat × Nat → ℚ) (ok : Nat × Nat × Nat → Bool) (n : Nat) (q : ℚ)
    (ref : List (Nat × Nat × Nat)) : Bool :=
  ((triples n).all fun k => (dProd dN k).nf.all fun m => ok m.1) && (refNF (-q) ref (volNF dN mom (triples n))).isEmpty

theorem volume_of_check {dN : List (List PE)} {mom : Nat × Nat × Nat → ℚ} {ok : Nat × Nat × Nat → Bool} {n : Nat} {q : ℚ}
    {ref : List (Nat × Nat × Nat)} (hc : volCheck dN mom ok n q ref = true) {rule : List QP}
    (h : ∀ k, ok k = true → quad rule (fun x => PE.monoVal x k) = (mom k : ℝ)) (X : List (V3 ℝ)) (hX : X.length = n)
    (hdN : dN.length = n) : volumeQ dN rule X = (q : ℝ) * (ref.map (tri3 fun i => X.getD i 0)).sum := by
  rw [volCheck, Bool.and_eq_true, List.all_eq_true, List.isEmpty_iff] at hc
  obtain ⟨h1, h2⟩ := hc
  rw [volumeQ_expand dN rule X (by omega), hX]
  have key : ∀ l : List (Nat × Nat × Nat), (∀ k ∈ l, ((dProd dN k).nf.all fun m => ok m.1) = true) →
      (l.map fun k => quad rule (fun x => (dProd dN k).eval x) * tri3 (fun i => X.getD i 0) k).sum =
        nfSum (tri3 fun i => X.getD i 0) (volNF dN mom l) := by
    intro l hl
    induction l with
    | nil => simp [volNF, nfSum]
    | cons k l ih =>
      rw [volNF, nfSum_altAdd, List.map_cons, List.sum_cons, ih fun k hk => hl k (List.mem_cons_of_mem _ hk),
        quad_nf h _ (hl k List.mem_cons_self)]
  rw [key _ h1]
  have := nfSum_refNF (fun i => X.getD i 0) (-q) ref (volNF dN mom (triples n))
  rw [h2] at this
  have h0 : nfSum (tri3 fun i => X.getD i 0) [] = 0 := by simp [nfSum]
  rw [h0, Rat.cast_neg] at this
  linarith

/-! ## hexahedra -/

/-- Moments of the interval. -/
def lineMomQ (k : Nat) : ℚ := if k % 2 == 0 then mkRat 2 (k + 1) else 0

theorem lineMomQ_eq (k : Nat) : (lineMomQ k : ℝ) = lineMom k := by
  rw [lineMom_eq, lineMomQ]
  by_cases h : k % 2 = 0
  · rw [if_pos (by simpa using h), Odd.neg_one_pow (by rw [Nat.odd_iff]; omega), Rat.mkRat_eq_div]
    push_cast; ring
  · rw [if_neg (by simpa using h), Even.neg_one_pow (by rw [Nat.even_iff]; omega)]
    simp

/-- Moments of the hexahedron. -/
def hexMomQ (k : Nat × Nat × Nat) : ℚ := lineMomQ k.1 * lineMomQ k.2.1 * lineMomQ k.2.2

theorem hex_moments {line : List (ℝ × ℝ)} {d : Nat} (h : LineExact d line) (k : Nat × Nat × Nat)
    (hk : (Nat.ble k.1 d && Nat.ble k.2.1 d && Nat.ble k.2.2 d) = true) :
    quad (gaussHex line line line) (fun x => PE.monoVal x k) = (hexMomQ k : ℝ) := by
  simp only [Bool.and_eq_true, Nat.ble_eq] at hk
  have := C37_Hex h h h [⟨1, k.1, k.2.1, k.2.2⟩] (by simpa [and_assoc] using hk)
  rw [hexInt_poly] at this
  simp only [hexMomQ, Rat.cast_mul, lineMomQ_eq]
  simpa [quad, polyVal, PE.monoVal] using this

/-- The triple products of `flux4`. -/
def flux4T (a b c d : Nat) : List (Nat × Nat × Nat) := [(a, b, c), (a, c, d), (a, b, d), (b, c, d)]

/-- The triple products of `flux3` (each twice). -/
def flux3T (a b c : Nat) : List (Nat × Nat × Nat) := [(a, b, c), (a, b, c)]

/-- The triple products of `hexVol12`. -/
def hexT : List (Nat × Nat × Nat) :=
  flux4T 0 4 7 3 ++ flux4T 1 2 6 5 ++ flux4T 0 1 5 4 ++ flux4T 2 3 7 6 ++ flux4T 0 3 2 1 ++ flux4T 4 5 6 7

/-- The triple products of `wedgeVol12`. -/
def wedgeT : List (Nat × Nat × Nat) :=
  flux3T 0 2 1 ++ flux3T 3 4 5 ++ flux4T 0 1 4 3 ++ flux4T 1 2 5 4 ++ flux4T 2 0 3 5

theorem hexT_sum (X : Nat → V3 ℝ) : (hexT.map (tri3 X)).sum = hexVol12 X := by
  simp only [hexT, flux4T, List.map_append, List.map_cons, List.map_nil, List.sum_append, List.sum_cons, List.sum_nil, tri3,
    hexVol12, flux4]
  ring

theorem wedgeT_sum (X : Nat → V3 ℝ) : (wedgeT.map (tri3 X)).sum = wedgeVol12 X := by
  simp only [wedgeT, flux4T, flux3T, List.map_append, List.map_cons, List.map_nil, List.sum_append, List.sum_cons,
    List.sum_nil, tri3, wedgeVol12, flux4, flux3]
  ring

/-- **C38** `H8`: any node positions, if the interval rule is exact up to degree 2 (the rule with two points is up to
degree 3). The volume is that of the hexahedron with bilinear faces. -/
theorem C38_H8 {line : List (ℝ × ℝ)} (h : LineExact 2 line) (X : List (V3 ℝ)) (hX : X.length = 8) :
    volumeQ Shp.dshpH8 (gaussHex line line line) X = hexVol12 (fun i => X.getD i 0) / 12 := by
  rw [volume_of_check (q := 1 / 12) (ref := hexT) (n := 8) (mom := hexMomQ)
    (ok := fun k => Nat.ble k.1 2 && Nat.ble k.2.1 2 && Nat.ble k.2.2 2) (by decide +kernel) (hex_moments h) X hX
    (by decide +kernel), hexT_sum]
  push_cast; ring

end PM
