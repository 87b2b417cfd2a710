import Verif.Misc
import Verif.TopoLemmas
import Verif.Transform
import Mathlib.Algebra.Order.Field.Rat
import Mathlib.Algebra.Order.Floor.Ring
import Mathlib.Data.Rat.Floor
import Mathlib.Data.List.Chain
import Mathlib.Tactic.Linarith
import Mathlib.Tactic.FieldSimp
import Mathlib.Tactic.Positivity

/-!
# Colours (C49), bins (C50), one-dimensional maps (C58)
-/

namespace PM

/-! ## C49 -/

/-- Two digits of every component. -/
theorem hex02_table : ∀ n < 256, (hex02 n).length = 2 ∧ intHex (hex02 n) = some n ∧ intHex ((hex02 n).map Char.toUpper) = some n ∧
    (hex02 n).head? ≠ some '#' ∧ ((hex02 n).map Char.toUpper).head? ≠ some '#' := by
  decide +kernel

theorem two_chars {l : List Char} (h : l.length = 2) : ∃ a b, l = [a, b] := by
  match l, h with
  | [a, b], _ => exact ⟨a, b, rfl⟩

theorem hexToRgb_six {a b c d e f : Char} (h : a ≠ '#') (n : Nat) :
    hexToRgb (List.replicate n '#' ++ [a, b, c, d, e, f]) = [[a, b], [c, d], [e, f]].mapM intHex := by
  have hs : (List.replicate n '#' ++ [a, b, c, d, e, f]).dropWhile (· == '#') = [a, b, c, d, e, f] := by
    induction n with
    | zero => simp [h]
    | succ n ih => simpa [List.replicate_succ] using ih
  unfold hexToRgb
  simp only [hs]
  rw [if_neg (by simp)]
  congr 1
  simp [chunks]

theorem rgb_general {r g b : Nat} (hr : r < 256) (hg : g < 256) (hb : b < 256) (n : Nat) :
    hexToRgb (List.replicate n '#' ++ rgbToHex r g b) = some [r, g, b] ∧
    hexToRgb (List.replicate n '#' ++ (rgbToHex r g b).map Char.toUpper) = some [r, g, b] := by
  obtain ⟨l1, v1, w1, x1, y1⟩ := hex02_table r hr
  obtain ⟨l2, v2, w2, x2, y2⟩ := hex02_table g hg
  obtain ⟨l3, v3, w3, x3, y3⟩ := hex02_table b hb
  obtain ⟨a1, b1, e1⟩ := two_chars l1
  obtain ⟨a2, b2, e2⟩ := two_chars l2
  obtain ⟨a3, b3, e3⟩ := two_chars l3
  unfold rgbToHex
  rw [e1] at v1 w1 x1 y1
  rw [e2] at v2 w2 x2
  rw [e3] at v3 w3 x3
  rw [e1, e2, e3]
  simp only [List.map_cons, List.map_nil] at w1 w2 w3
  constructor
  · have := hexToRgb_six (a := a1) (b := b1) (c := a2) (d := b2) (e := a3) (f := b3) (by simpa using x1) n
    rw [show [a1, b1] ++ [a2, b2] ++ [a3, b3] = [a1, b1, a2, b2, a3, b3] from rfl, this]
    simp only [List.mapM_cons, v1, v2, v3, List.mapM_nil]
    rfl
  · have := hexToRgb_six (a := a1.toUpper) (b := b1.toUpper) (c := a2.toUpper) (d := b2.toUpper) (e := a3.toUpper)
      (f := b3.toUpper) (by simpa using y1) n
    rw [show ([a1, b1] ++ [a2, b2] ++ [a3, b3]).map Char.toUpper =
      [a1.toUpper, b1.toUpper, a2.toUpper, b2.toUpper, a3.toUpper, b3.toUpper] from rfl, this]
    simp only [List.mapM_cons, w1, w2, w3, List.mapM_nil]
    rfl

/-- Converting to hexadecimal and back gives the colour. -/
theorem C49_roundtrip {r g b : Nat} (hr : r ≤ 255) (hg : g ≤ 255) (hb : b ≤ 255) :
    hexToRgb (rgbToHex r g b) = some [r, g, b] := by
  simpa using (rgb_general (by omega : r < 256) (by omega : g < 256) (by omega : b < 256) 0).1

/-- A leading `#` makes no difference. -/
theorem C49_hash {r g b : Nat} (hr : r ≤ 255) (hg : g ≤ 255) (hb : b ≤ 255) :
    hexToRgb ('#' :: rgbToHex r g b) = some [r, g, b] := by
  simpa using (rgb_general (by omega : r < 256) (by omega : g < 256) (by omega : b < 256) 1).1

/-- Capital letters are read as well. -/
theorem C49_upper {r g b : Nat} (hr : r ≤ 255) (hg : g ≤ 255) (hb : b ≤ 255) :
    hexToRgb ((rgbToHex r g b).map Char.toUpper) = some [r, g, b] := by
  simpa using (rgb_general (by omega : r < 256) (by omega : g < 256) (by omega : b < 256) 0).2

/-- Different colours have different representations, each of six characters. -/
theorem C49_injective {r g b r' g' b' : Nat} (hr : r ≤ 255) (hg : g ≤ 255) (hb : b ≤ 255) (hr' : r' ≤ 255) (hg' : g' ≤ 255)
    (hb' : b' ≤ 255) (h : rgbToHex r g b = rgbToHex r' g' b') : (r, g, b) = (r', g', b') ∧ (rgbToHex r g b).length = 6 := by
  have h1 := C49_roundtrip hr hg hb
  rw [h, C49_roundtrip hr' hg' hb'] at h1
  simp only [Option.some.injEq, List.cons.injEq, and_true] at h1
  refine ⟨by rw [h1.1, h1.2.1, h1.2.2], ?_⟩
  simp [rgbToHex, (hex02_table r (by omega)).1, (hex02_table g (by omega)).1, (hex02_table b (by omega)).1]

theorem hex_table2 : ∀ a < 16, ∀ b < 16, intHex [hexDigit a, hexDigit b] = some (16 * a + b) ∧
    hex02 (16 * a + b) = [hexDigit a, hexDigit b] ∧ hexDigit a ≠ '#' := by
  decide +kernel

/-- Six small hexadecimal digits are read as a colour that is written in the same way. -/
theorem C49_back (a b c d e f : Nat) (ha : a < 16) (hb : b < 16) (hc : c < 16) (hd : d < 16) (he : e < 16) (hf : f < 16) :
    ∃ r g b', hexToRgb ([a, b, c, d, e, f].map hexDigit) = some [r, g, b'] ∧ r ≤ 255 ∧ g ≤ 255 ∧ b' ≤ 255 ∧
      rgbToHex r g b' = [a, b, c, d, e, f].map hexDigit := by
  obtain ⟨h1, k1, n1⟩ := hex_table2 a ha b hb
  obtain ⟨h2, k2, n2⟩ := hex_table2 c hc d hd
  obtain ⟨h3, k3, n3⟩ := hex_table2 e he f hf
  refine ⟨16 * a + b, 16 * c + d, 16 * e + f, ?_, by omega, by omega, by omega, ?_⟩
  · have := hexToRgb_six (a := hexDigit a) (b := hexDigit b) (c := hexDigit c) (d := hexDigit d) (e := hexDigit e)
      (f := hexDigit f) n1 0
    simp only [List.replicate_zero, List.nil_append] at this
    simp only [List.map_cons, List.map_nil]
    rw [this]
    simp only [List.mapM_cons, h1, h2, h3, List.mapM_nil]
    rfl
  · simp [rgbToHex, k1, k2, k3]

example : rgbToHex 255 101 186 = "ff65ba".toList := by decide +kernel
example : hexToRgb "#FF65BA".toList = some [255, 101, 186] := by decide +kernel

/-! ## C50 -/

section
variable {K : Type} [Field K] [LinearOrder K] [IsStrictOrderedRing K] [FloorRing K]

theorem ndivOf_pos {lmax a b : K} (hl : 0 < lmax) : 0 < ndivOf lmax a b := by
  unfold ndivOf
  split
  · rename_i h
    have : 0 < (b - a) / lmax := div_pos (lt_trans hl h) hl
    have := Int.ceil_pos.2 this
    omega
  · exact one_pos

theorem gap_le {lmax a b : K} (hl : 0 < lmax) : (b - a) / ndivOf lmax a b ≤ lmax := by
  have hp : (0 : K) < ndivOf lmax a b := by exact_mod_cast ndivOf_pos hl
  rw [div_le_iff₀ hp]
  unfold ndivOf
  split
  · rename_i h
    have h1 : 0 < (b - a) / lmax := div_pos (lt_trans hl h) hl
    have h2 := Int.le_ceil ((b - a) / lmax)
    have h3 : ((⌈(b - a) / lmax⌉.toNat : Nat) : K) = (⌈(b - a) / lmax⌉ : Int) := by
      have : ((⌈(b - a) / lmax⌉.toNat : Nat) : Int) = ⌈(b - a) / lmax⌉ := Int.toNat_of_nonneg (Int.ceil_pos.2 h1).le
      exact_mod_cast congrArg (fun z : Int => (z : K)) this
    rw [h3]
    rw [div_le_iff₀ hl] at h2
    linarith [mul_comm lmax (⌈(b - a) / lmax⌉ : K)]
  · rename_i h
    push_cast
    linarith [not_lt.1 h]

theorem isChain_steps {R : K → K → Prop} (f : Nat → K) (r : List K) (n : Nat) (h : ∀ j < n, R (f j) (f (j + 1)))
    (hr : (f n :: r).IsChain R) : ((List.range n).map f ++ f n :: r).IsChain R := by
  induction n generalizing r with
  | zero => simpa using hr
  | succ n ih =>
    rw [List.range_succ, List.map_append, List.append_assoc]
    exact ih (f (n + 1) :: r) (fun j hj => h j (by omega)) (List.isChain_cons_cons.2 ⟨h n (by omega), hr⟩)

theorem subdivide_chain {lmax : K} (hl : 0 < lmax) : ∀ (bins : List K), bins.Pairwise (· < ·) → bins ≠ [] →
    ∃ r, subdivide lmax bins = some r ∧ r.head? = bins.head? ∧ (∀ b ∈ bins, b ∈ r) ∧ r.getLast? = bins.getLast? ∧
      r.IsChain fun x y => x < y ∧ y - x ≤ lmax
  | [], _, h => absurd rfl h
  | [b], _, _ => ⟨[b], rfl, rfl, by simp, rfl, List.isChain_singleton b⟩
  | a :: b :: l, hp, _ => by
    obtain ⟨r, h1, h2, h3, h4, h5⟩ := subdivide_chain hl (b :: l) (List.pairwise_cons.1 hp).2 (by simp)
    have hab : a < b := (List.pairwise_cons.1 hp).1 b List.mem_cons_self
    have hn := ndivOf_pos (a := a) (b := b) hl
    have hnK : (0 : K) < ndivOf lmax a b := by exact_mod_cast hn
    have hh : 0 < (b - a) / ndivOf lmax a b := div_pos (sub_pos.2 hab) hnK
    cases r with
    | nil => simp at h2
    | cons b' r =>
      simp only [List.head?_cons, Option.some.injEq] at h2
      subst h2
      refine ⟨gapBins lmax a b' ++ b' :: r, ?_, ?_, ?_, ?_, ?_⟩
      · simp only [subdivide, h1, Option.map_some]
      · unfold gapBins
        obtain ⟨m, hm⟩ : ∃ m, ndivOf lmax a b' = m + 1 := ⟨ndivOf lmax a b' - 1, by omega⟩
        rw [hm, List.range_succ_eq_map]
        simp
      · intro x hx
        rcases List.mem_cons.1 hx with rfl | hx
        · refine List.mem_append_left _ ?_
          unfold gapBins
          exact List.mem_map.2 ⟨0, List.mem_range.2 hn, by simp⟩
        · exact List.mem_append_right _ (h3 x hx)
      · rw [List.getLast?_append_cons, h4]
        simp
      · have e : b' = a + (ndivOf lmax a b' : K) * ((b' - a) / ndivOf lmax a b') := by
          field_simp
          ring
        have hc := isChain_steps (R := fun x y => x < y ∧ y - x ≤ lmax)
          (fun j : Nat => a + (j : K) * ((b' - a) / ndivOf lmax a b')) r (ndivOf lmax a b')
          (by
            intro j _
            have hg := gap_le (a := a) (b := b') hl
            have e2 : a + ((j + 1 : Nat) : K) * ((b' - a) / ndivOf lmax a b') =
                a + (j : K) * ((b' - a) / ndivOf lmax a b') + (b' - a) / ndivOf lmax a b' := by
              push_cast
              ring
            simp only [e2]
            constructor <;> linarith)
          (by rw [← e]; exact h5)
        rw [← e] at hc
        exact hc

/-- Subdividing increasing bins: the given values are kept, the result is increasing, starts and ends with the given ends,
and no gap is longer than the maximum. -/
theorem C50_subdivide {lmax : K} (hl : 0 < lmax) {bins : List K} (hp : bins.Pairwise (· < ·)) (hne : bins ≠ []) :
    ∃ r, subdivide lmax bins = some r ∧ (∀ b ∈ bins, b ∈ r) ∧ r.Pairwise (· < ·) ∧ r.head? = bins.head? ∧
      r.getLast? = bins.getLast? ∧ r.IsChain fun x y => y - x ≤ lmax := by
  obtain ⟨r, h1, h2, h3, h4, h5⟩ := subdivide_chain hl bins hp hne
  refine ⟨r, h1, h3, ?_, h2, h4, h5.imp fun _ _ h => h.2⟩
  exact List.isChain_iff_pairwise.1 (h5.imp fun _ _ h => h.1)

/-- The bins of the plate in one direction: collected in any order and with repetitions, then subdivided by a float. -/
theorem C50_plate {x : K} (hx : 0 < x) {bins : List K} (hne : bins ≠ []) :
    ∃ r, plateBins bins (.float x) = some r ∧ (∀ b ∈ bins, b ∈ r) ∧ r.Pairwise (· < ·) ∧
      r.IsChain (fun x' y => y - x' ≤ x) ∧ (∀ y ∈ r, ∃ lo ∈ bins, ∃ hi ∈ bins, lo ≤ y ∧ y ≤ hi) := by
  have hne' : npUnique bins ≠ [] := by
    obtain ⟨b, hb⟩ := List.exists_mem_of_ne_nil _ hne
    exact List.ne_nil_of_mem (mem_npUnique.2 hb)
  obtain ⟨r, h1, h2, h3, h4, h5, h6⟩ := C50_subdivide hx (sorted_npUnique bins) hne'
  refine ⟨r, h1, fun b hb => h2 b (mem_npUnique.2 hb), h3, h6, fun y hy => ?_⟩
  have hr : r ≠ [] := List.ne_nil_of_mem hy
  obtain ⟨a, l, rfl⟩ := List.exists_cons_of_ne_nil hr
  have ha : a ∈ bins := by
    rw [List.head?_cons] at h4
    exact mem_npUnique.1 (List.mem_of_mem_head? h4.symm)
  have hz : (a :: l).getLast (by simp) ∈ bins := by
    rw [List.getLast?_eq_some_getLast (by simp)] at h5
    exact mem_npUnique.1 (List.mem_of_mem_getLast? h5.symm)
  refine ⟨a, ha, _, hz, ?_, ?_⟩
  · rcases List.mem_cons.1 hy with rfl | hy
    · exact le_refl _
    · exact ((List.pairwise_cons.1 h3).1 y hy).le
  · have := List.dropLast_concat_getLast (l := a :: l) (by simp)
    rw [← this] at hy h3
    rcases List.mem_append.1 hy with h | h
    · exact ((List.pairwise_append.1 h3).2.2 y h _ (List.mem_singleton.2 rfl)).le
    · rw [List.mem_singleton.1 h]

end

/-- An integer maximum length is ignored. -/
theorem C50_int_false : ¬ ∀ (bins : List ℚ) (n : Int), 0 < n → bins ≠ [] →
    ∃ r, plateBins bins (.int n) = some r ∧ r.IsChain fun (x y : ℚ) => y - x ≤ n := by
  intro h
  obtain ⟨r, h1, h2⟩ := h [0, 5] 1 (by decide) (by simp)
  have : r = [0, 5] := Option.some.inj (h1.symm.trans (by decide +kernel))
  subst this
  have h3 := (List.isChain_cons_cons.1 h2).1
  norm_num at h3

example : plateBins ([5, -5, 0, 1, -1, 0] : List ℚ) (.float 2) = some [-5, -3, -1, 0, 1, 3, 5] := by decide +kernel

/-! ## C58 -/

section
variable {K : Type} [Field K]

/-- Point `j` on line `i`, whatever the order of the writes: the convex combination of the ends, in cell-major order. -/
theorem C58_points {pcoords : List K} {ecoords : List (List (V3 K))} (hne : ∀ e ∈ ecoords, e ≠ []) :
    ∃ w, pcoords1dWrites pcoords ecoords = some w ∧ ∀ w', w.Perm w' →
      (pcoords1dRun pcoords ecoords w').length = ecoords.length * pcoords.length ∧
      ∀ (i j : Nat) (e : List (V3 K)) (p : K) (a b : V3 K), ecoords[i]? = some e → pcoords[j]? = some p → e.head? = some a →
        e.getLast? = some b → (pcoords1dRun pcoords ecoords w')[i * pcoords.length + j]? = some ((1 - p) • a + p • b) := by
  set n := pcoords.length with hn
  let g : List (V3 K) × Nat → List (Nat × V3 K) := fun e =>
    pcoords.zipIdx.map fun (p : K × Nat) => (e.2 * n + p.2, (1 - p.1) • e.1.head?.getD 0 + p.1 • e.1.getLast?.getD 0)
  have hw : pcoords1dWrites pcoords ecoords = some (ecoords.zipIdx.map g).flatten := by
    unfold pcoords1dWrites
    rw [mapM_some (g := g)]
    · rfl
    · rintro ⟨e, i⟩ he
      have hem : e ∈ ecoords := by
        have := List.mem_zipIdx_iff_getElem?.1 he
        exact List.mem_of_getElem? this
      obtain ⟨a, l, rfl⟩ := List.exists_cons_of_ne_nil (hne e hem)
      simp only [List.head?_cons, Option.bind_some, List.getLast?_eq_some_getLast (List.cons_ne_nil a l), Option.map_some, g,
        Option.getD_some, hn]
  refine ⟨_, hw, fun w' hp => ?_⟩
  have hmem : ∀ x : Nat × V3 K, x ∈ (ecoords.zipIdx.map g).flatten ↔ ∃ (i j : Nat) (e : List (V3 K)) (p : K),
      ecoords[i]? = some e ∧ pcoords[j]? = some p ∧
      x = (i * n + j, (1 - p) • e.head?.getD 0 + p • e.getLast?.getD 0) := by
    intro x
    constructor
    · intro hx
      obtain ⟨l, hl, hx⟩ := List.mem_flatten.1 hx
      obtain ⟨⟨e, i⟩, he, rfl⟩ := List.mem_map.1 hl
      obtain ⟨⟨p, j⟩, hpj, rfl⟩ := List.mem_map.1 hx
      exact ⟨i, j, e, p, List.mem_zipIdx_iff_getElem?.1 he, List.mem_zipIdx_iff_getElem?.1 hpj, rfl⟩
    · rintro ⟨i, j, e, p, h1, h2, rfl⟩
      refine List.mem_flatten.2 ⟨g (e, i), List.mem_map.2 ⟨(e, i), List.mem_zipIdx_iff_getElem?.2 h1, rfl⟩, ?_⟩
      exact List.mem_map.2 ⟨(p, j), List.mem_zipIdx_iff_getElem?.2 h2, rfl⟩
  have hlt : ∀ {j : Nat} {p : K}, pcoords[j]? = some p → j < n := fun h => (List.getElem?_eq_some_iff.1 h).1
  have hcons : Consistent (ecoords.zipIdx.map g).flatten := by
    intro x hx y hy hxy
    obtain ⟨i, j, e, p, h1, h2, rfl⟩ := (hmem x).1 hx
    obtain ⟨i', j', e', p', h1', h2', rfl⟩ := (hmem y).1 hy
    obtain ⟨rfl, rfl⟩ := mixed_radix_inj (hlt h2) (hlt h2') hxy
    rw [h1] at h1'
    rw [h2] at h2'
    obtain rfl := Option.some.inj h1'
    obtain rfl := Option.some.inj h2'
    rfl
  refine ⟨by simp [pcoords1dRun, hn], fun i j e p a b h1 h2 h3 h4 => ?_⟩
  unfold pcoords1dRun
  have hi : i < ecoords.length := (List.getElem?_eq_some_iff.1 h1).1
  have hj := hlt h2
  rw [toArr_getElem? _ (by
    calc i * n + j < i * n + n := by omega
      _ = (i + 1) * n := by ring
      _ ≤ ecoords.length * n := Nat.mul_le_mul_right n hi)]
  rw [runW_perm hcons hp]
  have := runW_of_mem hcons (m := fun _ => (0 : V3 K))
    ((hmem (i * n + j, (1 - p) • a + p • b)).2 ⟨i, j, e, p, h1, h2, by rw [h3, h4]; rfl⟩)
  exact congrArg some this

/-- Parameters 0 and 1 give the ends of the line. -/
theorem C58_ends {pcoords : List K} {ecoords : List (List (V3 K))} {w w' : List (Nat × V3 K)}
    (hw : pcoords1dWrites pcoords ecoords = some w) (hp : w.Perm w') (hne : ∀ e ∈ ecoords, e ≠ []) {i j : Nat}
    {e : List (V3 K)} {a b : V3 K} (he : ecoords[i]? = some e) (ha : e.head? = some a) (hb : e.getLast? = some b) :
    (pcoords[j]? = some 0 → (pcoords1dRun pcoords ecoords w')[i * pcoords.length + j]? = some a) ∧
    (pcoords[j]? = some 1 → (pcoords1dRun pcoords ecoords w')[i * pcoords.length + j]? = some b) := by
  obtain ⟨w0, h1, h2⟩ := C58_points (pcoords := pcoords) hne
  rw [hw] at h1
  obtain rfl := Option.some.inj h1
  constructor
  · intro h
    rw [(h2 w' hp).2 i j e 0 a b he h ha hb]
    congr 1
    ext <;> simp
  · intro h
    rw [(h2 w' hp).2 i j e 1 a b he h ha hb]
    congr 1
    ext <;> simp

end

/-- The documented range of the parameters is [-1, 1]: -1 should be the first end. -/
theorem C58_range_false : ¬ ∀ (a b : V3 ℚ), (pcoords1dWrites [-1] [[a, b]]).map (pcoords1dRun [-1] [[a, b]]) = some [a] := by
  intro h
  exact absurd (h ⟨0, 0, 0⟩ ⟨1, 0, 0⟩) (by decide +kernel)

example : (pcoords1dWrites [0, 1/4, 1] [[⟨0, 0, 0⟩, ⟨4, 0, 0⟩], [⟨0, 8, 0⟩, ⟨7, 7, 7⟩, ⟨0, 0, 0⟩]]).map
    (pcoords1dRun [0, 1/4, 1] [[⟨0, 0, 0⟩, ⟨4, 0, 0⟩], [⟨0, 8, 0⟩, ⟨7, 7, 7⟩, (⟨0, 0, 0⟩ : V3 ℚ)]]) =
    some [⟨0, 0, 0⟩, ⟨1, 0, 0⟩, ⟨4, 0, 0⟩, ⟨0, 8, 0⟩, ⟨0, 6, 0⟩, ⟨0, 0, 0⟩] := by decide +kernel

/-- Lengths of lines: distances of the ends. -/
theorem C58_lengths {coords : List (V3 ℝ)} {topo : Topo} (hne : ∀ r ∈ topo, r ≠ []) (hr : ∀ r ∈ topo, ∀ n ∈ r, n < coords.length) :
    ∃ L, lengthsOfLines coords topo = some L ∧ L.length = topo.length ∧
      ∀ (i : Nat) (r : List Nat) (a b : Nat) (p q : V3 ℝ), topo[i]? = some r → r.head? = some a → r.getLast? = some b →
        coords[a]? = some p → coords[b]? = some q →
        L[i]? = some (Real.sqrt ((q.x - p.x) ^ 2 + (q.y - p.y) ^ 2 + (q.z - p.z) ^ 2)) := by
  obtain ⟨L, h1, h2, h3⟩ := mapM_exists (l := topo)
    (f := fun row : List Nat => row.getLast?.bind fun b => row.head?.bind fun a =>
      (coords[b]?).bind fun q => (coords[a]?).map fun p => vnorm (q - p))
    (P := fun _ (r : List Nat) y => ∀ (a b : Nat) (p q : V3 ℝ), r.head? = some a → r.getLast? = some b →
        coords[a]? = some p → coords[b]? = some q → y = Real.sqrt ((q.x - p.x) ^ 2 + (q.y - p.y) ^ 2 + (q.z - p.z) ^ 2))
    (by
      intro i r hi
      have hm := List.mem_of_getElem? hi
      obtain ⟨a, l, rfl⟩ := List.exists_cons_of_ne_nil (hne r hm)
      have ha := hr _ hm a List.mem_cons_self
      have hb := hr _ hm ((a :: l).getLast (by simp)) (List.getLast_mem _)
      refine ⟨vnorm (coords[(a :: l).getLast (by simp)] - coords[a]), ?_, ?_⟩
      · rw [List.getLast?_eq_some_getLast (by simp)]
        simp only [Option.bind_some, List.head?_cons, List.getElem?_eq_getElem ha, List.getElem?_eq_getElem hb, Option.map_some]
      · intro a' b' p q h4 h5 h6 h7
        rw [List.getLast?_eq_some_getLast (by simp)] at h5
        obtain rfl := Option.some.inj h4
        obtain rfl := Option.some.inj h5
        rw [List.getElem?_eq_getElem ha] at h6
        rw [List.getElem?_eq_getElem hb] at h7
        obtain rfl := Option.some.inj h6
        obtain rfl := Option.some.inj h7
        unfold vnorm
        congr 1
        simp only [V3.dot, V3.sub_x, V3.sub_y, V3.sub_z]
        ring)
  refine ⟨L, h1, h2, fun i r a b p q hi ha hb hp hq => ?_⟩
  have hlt : i < L.length := by rw [h2]; exact (List.getElem?_eq_some_iff.1 hi).1
  rw [List.getElem?_eq_getElem hlt, h3 i r L[i] hi (List.getElem?_eq_getElem hlt) a b p q ha hb hp hq]

/-- **C58** `distances_of_points`: one number for each point, zero for the first one and the distance from the point before for
the others. -/
theorem C58_distances (coords : List (V3 ℝ)) :
    (distancesOfPoints coords).length = coords.length ∧ (∀ d, (distancesOfPoints coords)[0]? = some d → d = 0) ∧
    ∀ (i : Nat) (p q : V3 ℝ), coords[i]? = some p → coords[i + 1]? = some q →
      (distancesOfPoints coords)[i + 1]? = some (Real.sqrt ((q.x - p.x) ^ 2 + (q.y - p.y) ^ 2 + (q.z - p.z) ^ 2)) := by
  cases coords with
  | nil => simp [distancesOfPoints]
  | cons a l =>
    refine ⟨by simp [distancesOfPoints], by simp [distancesOfPoints], fun i p q hp hq => ?_⟩
    rw [List.getElem?_cons_succ] at hq
    simp only [distancesOfPoints, List.getElem?_cons_succ, List.getElem?_map]
    have hz : ((a :: l).zip l)[i]? = some (p, q) := List.getElem?_zip_eq_some.2 ⟨hp, hq⟩
    rw [hz]
    simp only [Option.map_some, Option.some.injEq, vnorm, V3.dot, V3.sub_x, V3.sub_y, V3.sub_z]
    congr 1
    ring

/-- Both length functions agree if the second gets the coordinates of the nodes of each cell. -/
theorem C58_agree {coords : List (V3 ℝ)} {topo : Topo} {ec : List (List (V3 ℝ))} (hne : ∀ r ∈ topo, r ≠ [])
    (h : topo.mapM (gather? coords) = some ec) : lengthsOfLines2 ec = lengthsOfLines coords topo := by
  unfold lengthsOfLines2 lengthsOfLines
  induction topo generalizing ec with
  | nil =>
    obtain rfl : ec = [] := by simpa using h.symm
    rfl
  | cons r topo ih =>
    rw [List.mapM_cons] at h
    cases h1 : gather? coords r with
    | none => rw [h1] at h; cases h
    | some e =>
      cases h2 : topo.mapM (gather? coords) with
      | none => rw [h1, h2] at h; cases h
      | some ec' =>
        rw [h1, h2] at h
        obtain rfl : ec = e :: ec' := (Option.some.inj h).symm
        rw [List.mapM_cons, List.mapM_cons, ih (fun r hr => hne r (List.mem_cons_of_mem _ hr)) h2]
        congr 1
        obtain ⟨a, l, rfl⟩ := List.exists_cons_of_ne_nil (hne r List.mem_cons_self)
        have hl : e.length = (a :: l).length := mapM_length h1
        obtain ⟨p, hp1, hp2⟩ := mapM_get (f := fun i => coords[i]?) h1 (i := 0) (a := a) rfl
        obtain ⟨q, hq1, hq2⟩ := mapM_get (f := fun i => coords[i]?) h1 (i := l.length) (a := (a :: l).getLast (by simp))
          (by rw [List.getElem?_eq_getElem (by simp)]; simp [List.getLast_eq_getElem])
        have he1 : e.head? = some p := by rw [List.head?_eq_getElem?]; exact hp2
        have he2 : e.getLast? = some q := by
          rw [List.getLast?_eq_getElem?, hl]
          exact hq2
        rw [he1, he2, List.getLast?_eq_some_getLast (by simp)]
        simp only [Option.bind_some, List.head?_cons, hq1, hp1, Option.map_some]

end PM
