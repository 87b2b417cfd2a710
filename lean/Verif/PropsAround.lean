import Verif.Around
import Verif.TopoLemmas

/-!
# Radius neighbours (C51)
-/

namespace PM

open V3

/-- Euclidean distance, for the statements. -/
noncomputable def eDist (p q : V3 ℝ) : ℝ := Real.sqrt ((p.x - q.x) ^ 2 + (p.y - q.y) ^ 2 + (p.z - q.z) ^ 2)

theorem vnorm_sub_eDist (p q : V3 ℝ) : vnorm (q - p) = eDist p q := by
  unfold vnorm eDist dot
  congr 1
  simp only [V3.sub_x, V3.sub_y, V3.sub_z]
  ring

/-- Points `i` and `k` are at most `r` apart. -/
def WithinR (points : List (V3 ℝ)) (r : ℝ) (i k : Nat) : Prop :=
  ∃ p q, points[i]? = some p ∧ points[k]? = some q ∧ eDist p q ≤ r

theorem mem_whereNear {points : List (V3 ℝ)} {r : ℝ} {i k : Nat} {p : V3 ℝ} (hp : points[i]? = some p) :
    k ∈ whereNear points r p ↔ WithinR points r i k := by
  unfold whereNear WithinR
  simp only [List.mem_filter, List.mem_range, decide_eq_true_eq, vnorm_sub_eDist]
  constructor
  · rintro ⟨-, q, h1, h2⟩
    exact ⟨p, q, hp, h1, h2⟩
  · rintro ⟨p', q, h1, h2, h3⟩
    rw [hp] at h1
    obtain rfl := Option.some.inj h1
    exact ⟨(List.getElem?_eq_some_iff.1 h2).1, q, h2, h3⟩

theorem whereNear_sorted (points : List (V3 ℝ)) (r : ℝ) (p : V3 ℝ) : (whereNear points r p).Pairwise (· < ·) := by
  unfold whereNear
  exact List.Pairwise.filter _ List.pairwise_lt_range

/-- The serial version, which is never called: row `i` lists exactly the points within the radius, in increasing order,
the point itself among them. -/
theorem C51_serial (points : List (V3 ℝ)) (r : ℝ) :
    (cellsAroundST points r).1.length = points.length ∧
    ∀ (i : Nat) (row : List Nat), (cellsAroundST points r).1[i]? = some row →
      row.Pairwise (· < ·) ∧ (∀ k, k ∈ row ↔ WithinR points r i k) ∧ (cellsAroundST points r).2[i]? = some row.length := by
  refine ⟨by simp [cellsAroundST], fun i row hrow => ?_⟩
  simp only [cellsAroundST, List.getElem?_map] at hrow ⊢
  obtain ⟨p, hp, rfl⟩ := Option.map_eq_some_iff.1 hrow
  refine ⟨whereNear_sorted _ _ _, fun k => mem_whereNear hp, ?_⟩
  rw [hp]
  rfl

theorem length_padRow (n : Nat) (l : List Nat) : (padRow n l).length = n := by
  unfold padRow
  split
  · simp; omega
  · simp; omega

theorem around_row {points : List (V3 ℝ)} {r : ℝ} {n i : Nat} {row : List Nat}
    (h : (pointsAroundDict points r n).get? i = some row) :
    ∃ p, points[i]? = some p ∧ row = padRow n (whereNear points r p) := by
  have key : ∀ (l : List (List Nat × Nat)) (s : Nat), (∀ q ∈ l, q.1.length = q.2) →
      PyDict.get? ((l.zipIdx s).map fun q => (q.2, q.1.1.take q.1.2)) i = some row →
        s ≤ i ∧ (l.map Prod.fst)[i - s]? = some row := by
    intro l
    induction l with
    | nil => intro s _ h; cases h
    | cons a l ih =>
      intro s hl h
      simp only [List.zipIdx_cons, List.map_cons, PyDict.get?] at h
      split at h
      · rename_i hs
        have ha := hl a List.mem_cons_self
        rw [List.take_of_length_le (by omega)] at h
        obtain rfl := Option.some.inj h
        refine ⟨by omega, ?_⟩
        rw [show i - s = 0 by omega]
        rfl
      · rename_i hs
        obtain ⟨h1, h2⟩ := ih (s + 1) (fun q hq => hl q (List.mem_cons_of_mem _ hq)) h
        refine ⟨by omega, ?_⟩
        rw [show i - s = (i - (s + 1)) + 1 by omega]
        simpa using h2
  unfold pointsAroundDict cellsDataToDict at h
  obtain ⟨-, h2⟩ := key _ 0 (by
    intro q hq
    simp only [cellsAroundMT] at hq
    rw [List.mem_iff_getElem?] at hq
    obtain ⟨k, hk⟩ := hq
    rw [List.getElem?_zip_eq_some] at hk
    obtain ⟨hk1, hk2⟩ := hk
    rw [List.getElem?_map, hk1] at hk2
    exact Option.some.inj hk2) h
  rw [Nat.sub_zero] at h2
  simp only [cellsAroundMT] at h2
  rw [List.map_fst_zip (by simp), List.getElem?_map] at h2
  obtain ⟨p, h3, rfl⟩ := Option.map_eq_some_iff.1 h2
  exact ⟨p, h3, rfl⟩

/-- What the rows are: as long as at most `n_max` points are near, an index other than 0 is listed exactly if the point is
near, the point itself included; 0 is listed if it is near or if fewer than `n_max` points are near. If more points are near, only near points are listed,
namely the first ones. Missing: see `C51_zero_false`, `C51_self_false`, `C51_truncated_false`. -/
theorem C51_partial {points : List (V3 ℝ)} {r : ℝ} {n i : Nat} {row : List Nat}
    (h : (pointsAroundDict points r n).get? i = some row) :
    ∃ near : List Nat, near.Pairwise (· < ·) ∧ (∀ k, k ∈ near ↔ WithinR points r i k) ∧ row.length = n ∧
      near.take n = row.take near.length ∧
      (near.length ≤ n → ∀ k, k ∈ row ↔ WithinR points r i k ∨ (k = 0 ∧ near.length < n)) ∧
      (n ≤ near.length → ∀ k ∈ row, WithinR points r i k) := by
  obtain ⟨p, hp, rfl⟩ := around_row h
  refine ⟨whereNear points r p, whereNear_sorted _ _ _, fun k => mem_whereNear hp, length_padRow _ _, ?_, ?_, ?_⟩
  · unfold padRow
    split
    · rename_i hle
      rw [List.take_left, List.take_of_length_le hle]
    · rename_i hle
      rw [List.take_of_length_le (l := List.take n _) (by rw [List.length_take]; omega)]
  · intro hle k
    unfold padRow
    rw [if_pos hle, List.mem_append, List.mem_replicate, mem_whereNear hp]
    constructor
    · rintro (h1 | ⟨h1, rfl⟩)
      · exact Or.inl h1
      · exact Or.inr ⟨rfl, by omega⟩
    · rintro (h1 | ⟨rfl, h1⟩)
      · exact Or.inl h1
      · exact Or.inr ⟨by omega, rfl⟩
  · intro hle k hk
    rw [← mem_whereNear hp]
    unfold padRow at hk
    split at hk
    · rename_i h2
      have : n - (whereNear points r p).length = 0 := by omega
      rw [this] at hk
      simpa using hk
    · exact List.mem_of_mem_take hk

theorem csr_rows (rows : List (List Nat)) (pre : List Nat) (i : Nat) :
    ((cumsumFrom pre.length (rows.map List.length))[i]?).bind (fun a =>
      ((cumsumFrom pre.length (rows.map List.length))[i + 1]?).map fun b => ((pre ++ rows.flatten).drop a).take (b - a)) =
    rows[i]? := by
  induction rows generalizing pre i with
  | nil => cases i <;> simp [cumsumFrom]
  | cons a rows ih =>
    cases i with
    | zero =>
      cases rows with
      | nil => simp [cumsumFrom]
      | cons b rows => simp [cumsumFrom]
    | succ i =>
      have := ih (pre ++ a) i
      rw [List.length_append] at this
      simp only [List.map_cons, cumsumFrom, List.getElem?_cons_succ, List.flatten_cons]
      rw [← List.append_assoc]
      exact this

/-- All return formats hold the same rows. -/
theorem C51_formats (points : List (V3 ℝ)) (r : ℝ) (n i : Nat) :
    (splitCuts (pointsAroundJagged points r n).1 (pointsAroundJagged points r n).2)[i]? =
      (pointsAroundDict points r n).get? i ∧
    (pointsAroundCsr points r n).row? i = (pointsAroundDict points r n).get? i ∧
    (i < points.length → ((pointsAroundDict points r n).get? i).isSome) := by
  set rows := points.map fun p => padRow n (whereNear points r p) with hrows
  have hall : ∀ q ∈ rows.zip (rows.map List.length), q.1.take q.2 = q.1 := by
    intro q hq
    obtain ⟨k, hk⟩ := List.mem_iff_getElem?.1 hq
    rw [List.getElem?_zip_eq_some] at hk
    obtain ⟨hk1, hk2⟩ := hk
    rw [List.getElem?_map, hk1] at hk2
    rw [← Option.some.inj hk2, List.take_length]
  have hd : pointsAroundDict points r n = rows.zipIdx.map fun q => (q.2, q.1) := by
    unfold pointsAroundDict cellsDataToDict
    simp only [cellsAroundMT, ← hrows]
    apply List.ext_getElem
    · simp
    · intro k h1 h2
      simp [List.take_of_length_le]
  have hget : (pointsAroundDict points r n).get? i = rows[i]? := by
    rw [hd]
    have key : ∀ (l : List (List Nat)) (s j : Nat), PyDict.get? ((l.zipIdx s).map fun q => (q.2, q.1)) (s + j) = l[j]? := by
      intro l
      induction l with
      | nil => intro s j; rfl
      | cons a l ih =>
        intro s j
        simp only [List.zipIdx_cons, List.map_cons, PyDict.get?]
        cases j with
        | zero => simp
        | succ j =>
          rw [if_neg (by omega), show s + (j + 1) = (s + 1) + j by omega, ih]
          simp
    simpa using key rows 0 i
  refine ⟨?_, ?_, ?_⟩
  · rw [hget]
    unfold pointsAroundJagged cellsDataToJagged
    simp only [cellsAroundMT, ← hrows]
    have : ((rows.zip (rows.map List.length)).flatMap fun q => q.1.take q.2) = rows.flatten := by
      rw [List.flatMap_def, List.map_congr_left hall, List.map_fst_zip (by simp)]
    rw [this, splitCuts_flatten]
  · rw [hget]
    unfold pointsAroundCsr dictToSpdata CsrN.row?
    simp only
    rw [hd]
    have e1 : ((rows.zipIdx.map fun q => (q.2, q.1)).flatMap Prod.snd) = rows.flatten := by
      rw [List.flatMap_def, List.map_map]
      congr 1
      exact List.zipIdx_map_fst 0 rows
    have e2 : ((rows.zipIdx.map fun q => (q.2, q.1)).map fun q => q.2.length) = rows.map List.length := by
      rw [List.map_map]
      conv_rhs => rw [← List.zipIdx_map_fst 0 rows, List.map_map]
      rfl
    rw [e1, e2]
    have := csr_rows rows [] i
    simpa [indptrOf] using this
  · intro hi
    rw [hget]
    simp [hrows, hi]

/-- The first point is listed for every point with fewer than `n_max` points around it, however far it is. -/
theorem C51_zero_false : ¬ ∀ (points : List (V3 ℝ)) (r : ℝ) (n i k : Nat) (row : List Nat),
    (pointsAroundDict points r n).get? i = some row → (k ∈ row → WithinR points r i k) := by
  intro h
  have hs := (C51_formats [⟨0, 0, 0⟩, ⟨10, 0, 0⟩] 1 10 1).2.2 (by simp)
  obtain ⟨row, hrow⟩ := Option.isSome_iff_exists.1 hs
  obtain ⟨near, h1, h2, h3, h4, h5, h6⟩ := C51_partial hrow
  have hnot : ¬ WithinR [⟨0, 0, 0⟩, ⟨10, 0, 0⟩] 1 1 0 := by
    rintro ⟨p, q, hp, hq, hd⟩
    simp only [List.getElem?_cons_succ, List.getElem?_cons_zero, Option.some.injEq] at hp hq
    subst hp hq
    unfold eDist at hd
    rw [Real.sqrt_le_left (by norm_num)] at hd
    norm_num at hd
  have hlt : near.length < 10 := by
    have : ∀ k ∈ near, k < 2 := by
      intro k hk
      obtain ⟨p, q, -, hq, -⟩ := (h2 k).1 hk
      simpa using (List.getElem?_eq_some_iff.1 hq).1
    have hnd : near.Nodup := h1.imp fun h => Nat.ne_of_lt h
    have := List.Nodup.length_le_card (α := Fin 2) (l := near.pmap (fun k hk => ⟨k, hk⟩) this)
      (hnd.pmap (by intro a _ b _ hab; simpa using hab))
    simp at this
    omega
  exact hnot (h _ _ _ _ 0 row hrow ((h5 hlt.le 0).2 (Or.inr ⟨rfl, hlt⟩)))

/-- Every point is listed as its own neighbour (if it has room in its row). -/
theorem C51_self_false : ¬ ∀ (points : List (V3 ℝ)) (r : ℝ) (n i : Nat) (row : List Nat),
    (pointsAroundDict points r n).get? i = some row → i ∉ row := by
  intro h
  have hs := (C51_formats [⟨0, 0, 0⟩] 1 10 0).2.2 (by simp)
  obtain ⟨row, hrow⟩ := Option.isSome_iff_exists.1 hs
  obtain ⟨near, h1, h2, h3, h4, h5, h6⟩ := C51_partial hrow
  have hself : WithinR [⟨0, 0, 0⟩] 1 0 0 := ⟨_, _, rfl, rfl, by simp [eDist]⟩
  refine h _ _ _ _ row hrow ?_
  by_cases hl : near.length ≤ 10
  · exact (h5 hl 0).2 (Or.inl hself)
  · exfalso
    have : ∀ k ∈ near, k < 1 := by
      intro k hk
      obtain ⟨p, q, -, hq, -⟩ := (h2 k).1 hk
      simpa using (List.getElem?_eq_some_iff.1 hq).1
    have hnd : near.Nodup := h1.imp fun h => Nat.ne_of_lt h
    have := List.Nodup.length_le_card (α := Fin 1) (l := near.pmap (fun k hk => ⟨k, hk⟩) this)
      (hnd.pmap (by intro a _ b _ hab; simpa using hab))
    simp at this
    omega

/-- With more than `n_max` points within the radius some are not listed. -/
theorem C51_truncated_false : ¬ ∀ (points : List (V3 ℝ)) (r : ℝ) (n i k : Nat) (row : List Nat),
    (pointsAroundDict points r n).get? i = some row → k ≠ i → WithinR points r i k → k ∈ row := by
  intro h
  have hs := (C51_formats [⟨0, 0, 0⟩, ⟨0, 0, 0⟩] 1 1 0).2.2 (by simp)
  obtain ⟨row, hrow⟩ := Option.isSome_iff_exists.1 hs
  obtain ⟨near, h1, h2, h3, h4, h5, h6⟩ := C51_partial hrow
  have hw : ∀ k, k < 2 → WithinR [⟨0, 0, 0⟩, ⟨0, 0, 0⟩] 1 0 k := by
    intro k hk
    rcases (by omega : k = 0 ∨ k = 1) with rfl | rfl <;> exact ⟨_, _, rfl, rfl, by simp [eDist]⟩
  have m1 : 1 ∈ row := h _ _ _ _ 1 row hrow (by decide) (hw 1 (by decide))
  have m0 : 0 ∈ near := (h2 0).2 (hw 0 (by decide))
  -- the row has one entry, the first near point, which is 0
  match row, h3 with
  | [a], _ =>
    obtain rfl : 1 = a := by simpa using m1
    match near, h1, m0, h4 with
    | b :: near, h1, m0, h4 =>
      simp only [List.length_cons, List.take_succ_cons, List.take_zero, List.cons.injEq] at h4
      obtain ⟨rfl, -⟩ := h4
      rcases List.mem_cons.1 m0 with h0 | h0
      · exact absurd h0 (by decide)
      · have := (List.pairwise_cons.1 h1).1 0 h0
        omega

example : WithinR [⟨0, 0, 0⟩, ⟨1, 0, 0⟩, ⟨5, 0, 0⟩] 2 0 1 :=
  ⟨_, _, rfl, rfl, by unfold eDist; rw [Real.sqrt_le_left (by norm_num)]; norm_num⟩

end PM
