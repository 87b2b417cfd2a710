import Verif.KnnCall
import Verif.PropsKnn

/-!
# C123: the search for nearest neighbours
-/

namespace PM

section
variable {K : Type} [Field K] [LinearOrder K]

/-- What is assumed of the tree of scipy: (at most) `k` nearest points, the nearer ones first. -/
def TreeContract (tree : List (V3 K) → Nat → V3 K → List Nat) : Prop :=
  ∀ X k p, IsKNearest X p (min k X.length) (tree X k p) ∧
    (tree X k p).Pairwise fun i j => ∀ a b, X[i]? = some a → X[j]? = some b → dist2 p a ≤ dist2 p b

/-- Specification: among the points `X`, `q` has rank `r` as seen from `p`: less than `r` points are closer, at least `r` are at most as far. -/
def HasRank (X : List (V3 K)) (p q : V3 K) (r : Nat) : Prop := closerCount X p q < r ∧ r ≤ withinCount X p q

theorem isKNearest_take {X : List (V3 K)} {p : V3 K} {k r : Nat} {row : List Nat} (h : IsKNearest X p k row)
    (hs : row.Pairwise fun i j => ∀ a b, X[i]? = some a → X[j]? = some b → dist2 p a ≤ dist2 p b) (hr : r ≤ k) : IsKNearest X p r (row.take r) := by
  obtain ⟨h1, h2, h3, h4⟩ := h
  refine ⟨by rw [List.length_take, h1]; omega, h2.sublist (List.take_sublist _ _), fun j hj => h3 j (List.mem_of_mem_take hj), ?_⟩
  intro j hj l hl hlr c d hc hd
  by_cases hm : l ∈ row
  · rw [← List.take_append_drop r row] at hs hm
    rcases List.mem_append.1 hm with hm | hm
    · exact absurd hm hlr
    · exact (List.pairwise_append.1 hs).2.2 j hj l hm c d hc hd
  · exact h4 j (List.mem_of_mem_take hj) l hl hm c d hc hd

/-- The entry of rank `r` of a sorted row of nearest points has this rank. -/
theorem rank_of_row {X : List (V3 K)} {p q : V3 K} {k r j : Nat} {row : List Nat} (h : IsKNearest X p k row)
    (hs : row.Pairwise fun i j => ∀ a b, X[i]? = some a → X[j]? = some b → dist2 p a ≤ dist2 p b) (h0 : 1 ≤ r) (hr : r ≤ k) (hj : row[r - 1]? = some j)
    (hq : X[j]? = some q) : HasRank X p q r := by
  have ht := isKNearest_take h hs hr
  have hjt : (row.take r)[r - 1]? = some j := by rw [List.getElem?_take, if_pos (by omega), hj]
  refine ⟨ht.closer (List.mem_of_getElem? hjt) hq, ?_⟩
  have hlen : withinCount X p q = ((List.range X.length).filter fun l => decide (dist2 p (X.getD l 0) ≤ dist2 p q)).length := by
    rw [withinCount, ← List.countP_eq_length_filter]
    conv_lhs => rw [show X = (List.range X.length).map (fun l => X.getD l 0) from by
      refine List.ext_getElem (by simp) fun i h h' => ?_
      simp [List.getD_eq_getElem?_getD, List.getElem?_eq_getElem h]]
    rw [List.countP_map]
    rfl
  rw [hlen, ← ht.1]
  refine (ht.2.1.subperm fun i hi => ?_).length_le
  have hiX := ht.2.2.1 i hi
  rw [List.mem_filter, List.mem_range, decide_eq_true_eq]
  refine ⟨hiX, ?_⟩
  have hgi : X[i]? = some (X.getD i 0) := by rw [List.getD_eq_getElem?_getD, List.getElem?_eq_getElem hiX]; rfl
  obtain ⟨m, hm, rfl⟩ := List.getElem_of_mem hi
  have hmr : m < r := by rw [ht.1] at hm; exact hm
  rcases Nat.lt_or_ge m (r - 1) with hlt | hge
  · have hrl : r - 1 < row.length := (List.getElem?_eq_some_iff.1 hj).1
    have := List.pairwise_iff_getElem.1 hs m (r - 1) (by omega) hrl hlt
    rw [List.getElem_take] at hgi ⊢
    exact this _ q hgi (by rw [← hq, ← Option.some_inj.1 ((List.getElem?_eq_getElem hrl).symm.trans hj)])
  · obtain rfl : m = r - 1 := by omega
    have he : (row.take r)[r - 1] = j := by
      have := hjt
      rw [List.getElem?_eq_getElem hm] at this
      exact Option.some.inj this
    rw [he] at hgi ⊢
    rw [hq] at hgi
    rw [← Option.some.inj hgi]

/-- Specification: what an entry of rank `r` says about the points `X` as seen from `p`: a point of that rank, or the number of points if there are fewer
than `r`; the same for distances. -/
def RankRight (root : K → K) (X : List (V3 K)) (p : V3 K) (r j : Nat) (d : Option K) : Prop :=
  (r ≤ X.length → ∃ q, X[j]? = some q ∧ HasRank X p q r ∧ d = some (root (dist2 p q))) ∧ (X.length < r → j = X.length ∧ d = none)

theorem rankRight {root : K → K} {tree : List (V3 K) → Nat → V3 K → List Nat} (ht : TreeContract tree) (X : List (V3 K)) (p : V3 K) {k r : Nat} (h0 : 1 ≤ r)
    (hr : r ≤ k) : RankRight root X p r (rankEntry X.length (tree X k p) r) (rankDist root X p (tree X k p) r) := by
  obtain ⟨h1, h2⟩ := ht X k p
  constructor
  · intro hrn
    have hl : r - 1 < (tree X k p).length := by rw [h1.1]; omega
    have hj := List.getElem?_eq_getElem hl
    have hX := h1.2.2.1 _ (List.getElem_mem hl)
    refine ⟨X[(tree X k p)[r - 1]], by rw [rankEntry, hj, Option.getD_some, List.getElem?_eq_getElem hX], ?_, ?_⟩
    · exact rank_of_row h1 h2 h0 (by omega) hj (List.getElem?_eq_getElem hX)
    · rw [rankDist, hj, Option.bind_some, List.getElem?_eq_getElem hX]
      rfl
  · intro hrn
    have hn : (tree X k p)[r - 1]? = none := List.getElem?_eq_none (by rw [h1.1]; omega)
    exact ⟨by rw [rankEntry, hn]; rfl, by rw [rankDist, hn]; rfl⟩

/-- **C123** (one neighbour): one number for every point that is searched for, and its distance if it is asked for. -/
theorem C123_nearest_partial {root : K → K} {tree : List (V3 K) → Nat → V3 K → List Nat} (ht : TreeContract tree) (X Y : List (V3 K)) (maxd : Option K) :
    ∃ (a : List Nat) (d : List (Option K)), knnCall root tree .scipy X (some Y) (.one 1) maxd false = some ⟨.flat a, none⟩ ∧
      knnCall root tree .scipy X (some Y) (.one 1) maxd true = some ⟨.flat a, some (.flat d)⟩ ∧ a.length = Y.length ∧ d.length = Y.length ∧
      ∀ (i : Nat) (p : V3 K), Y[i]? = some p → ∃ j e, a[i]? = some j ∧ d[i]? = some e ∧ RankRight root X p 1 j e := by
  refine ⟨_, _, rfl, rfl, by simp, by simp, fun i p hp => ⟨_, _, ?_, ?_, rankRight ht X p (k := 1) (le_refl _) (le_refl _)⟩⟩ <;>
    rw [List.getElem?_map, hp] <;> rfl

/-- **C123** (several neighbours): entry `i, c` has rank `c + 1`. -/
theorem C123_neighbours_partial {root : K → K} {tree : List (V3 K) → Nat → V3 K → List Nat} (ht : TreeContract tree) (X Y : List (V3 K)) (maxd : Option K) {k : Nat}
    (hk : 2 ≤ k) :
    ∃ (a : List (List Nat)) (d : List (List (Option K))), knnCall root tree .scipy X (some Y) (.one k) maxd false = some ⟨.table a, none⟩ ∧
      knnCall root tree .scipy X (some Y) (.one k) maxd true = some ⟨.table a, some (.table d)⟩ ∧ a.length = Y.length ∧ d.length = Y.length ∧
      ∀ (i c : Nat) (p : V3 K), Y[i]? = some p → c < k → ∃ j e, nodeAt a i c = some j ∧ nodeAt d i c = some e ∧ RankRight root X p (c + 1) j e := by
  refine ⟨Y.map fun p => (List.range k).map fun r => rankEntry X.length (tree X k p) (r + 1),
    Y.map fun p => (List.range k).map fun r => rankDist root X p (tree X k p) (r + 1), ?_, ?_, by simp, by simp, fun i c p hp hc =>
      ⟨_, _, ?_, ?_, rankRight ht X p (k := k) (r := c + 1) (by omega) (by omega)⟩⟩
  · simp [knnCall, scipyQuery, show k ≠ 0 by omega, show k ≠ 1 by omega]
  · simp [knnCall, scipyQuery, show k ≠ 0 by omega, show k ≠ 1 by omega]
  · simp [nodeAt, hp, hc]
  · simp [nodeAt, hp, hc]

/-- **C123** (ranks): for a list of ranks, entry `i, c` has the rank that is number `c` in the list. -/
theorem C123_ranks_partial {root : K → K} {tree : List (V3 K) → Nat → V3 K → List Nat} (ht : TreeContract tree) (X Y : List (V3 K)) (maxd : Option K) {ks : List Nat}
    (hne : ks ≠ []) (h0 : ∀ r ∈ ks, 1 ≤ r) :
    ∃ (a : List (List Nat)) (d : List (List (Option K))), knnCall root tree .scipy X (some Y) (.many ks) maxd false = some ⟨.table a, none⟩ ∧
      knnCall root tree .scipy X (some Y) (.many ks) maxd true = some ⟨.table a, some (.table d)⟩ ∧ a.length = Y.length ∧ d.length = Y.length ∧
      ∀ (i c r : Nat) (p : V3 K), Y[i]? = some p → ks[c]? = some r → ∃ j e, nodeAt a i c = some j ∧ nodeAt d i c = some e ∧ RankRight root X p r j e := by
  have hz : ¬ (ks = [] ∨ 0 ∈ ks) := by
    rintro (h | h)
    · exact hne h
    · have := h0 0 h
      omega
  have hmax : ∀ (l : List Nat) (m r : Nat), (r ≤ m ∨ r ∈ l) → r ≤ l.foldl max m := by
    intro l
    induction l with
    | nil => intro m r h; simpa using h
    | cons x l ih =>
      intro m r h
      rw [List.foldl_cons]
      refine ih _ _ ?_
      rcases h with h | h
      · exact Or.inl (by omega)
      · rcases List.mem_cons.1 h with rfl | h
        · exact Or.inl (by omega)
        · exact Or.inr h
  refine ⟨Y.map fun p => ks.map fun r => rankEntry X.length (tree X (ks.foldl max 0) p) r,
    Y.map fun p => ks.map fun r => rankDist root X p (tree X (ks.foldl max 0) p) r, ?_, ?_, by simp, by simp, fun i c r p hp hc =>
      ⟨_, _, ?_, ?_, rankRight ht X p (k := ks.foldl max 0) (r := r) (h0 r (List.mem_of_getElem? hc)) (hmax _ _ _ (Or.inr (List.mem_of_getElem? hc)))⟩⟩
  · simp only [knnCall, scipyQuery, Option.bind_some, if_neg hz, Option.map_some]
    rfl
  · simp only [knnCall, scipyQuery, Option.bind_some, if_neg hz, Option.map_some]
    rfl
  · simp [nodeAt, hp, hc]
  · simp [nodeAt, hp, hc]

omit [LinearOrder K] in
/-- **C123** (refusals): no neighbours, no ranks and rank zero. -/
theorem C123_refused (root : K → K) (tree : List (V3 K) → Nat → V3 K → List Nat) (backend : KnnBackend) (X : List (V3 K)) (Y : Option (List (V3 K)))
    (maxd : Option K) (ret : Bool) :
    knnCall root tree backend X Y (.one 0) maxd ret = none ∧ knnCall root tree backend X Y (.many []) maxd ret = none ∧
      ∀ ks, 0 ∈ ks → knnCall root tree backend X Y (.many ks) maxd ret = none := by
  refine ⟨?_, ?_, fun ks h => ?_⟩ <;> cases backend <;> try rfl
  all_goals cases Y <;> simp [knnCall, scipyQuery]
  exact fun _ => h

/-- The search of the other functions of the library is the one of `knnCall` with a number. -/
theorem kNearest_eq {root : K → K} {tree : List (V3 K) → Nat → V3 K → List Nat} (ht : TreeContract tree) (X Y : List (V3 K)) (maxd : Option K) {k : Nat}
    (hk : 2 ≤ k) : ∃ t, kNearestNeighbours .scipy k maxd (fun k => Y.map fun p => tree X k p ++ List.replicate (k - X.length) X.length) = some (.table t) ∧
      knnCall root tree .scipy X (some Y) (.one k) maxd false = some ⟨.table t, none⟩ := by
  refine ⟨_, by rw [kNearestNeighbours, if_neg (by omega), if_neg (by omega)], ?_⟩
  simp only [knnCall, scipyQuery, Option.bind_some, if_neg (show k ≠ 0 by omega), if_neg (show k ≠ 1 by omega), Option.map_some, Bool.false_eq_true, if_false]
  congr 3
  refine List.map_congr_left fun p _ => ?_
  have hl := (ht X k p).1.1
  apply List.ext_getElem?
  intro i
  rw [List.getElem?_map]
  by_cases hi : i < k
  · rw [List.getElem?_range hi, Option.map_some, rankEntry, Nat.add_sub_cancel]
    by_cases hx : i < X.length
    · rw [List.getElem?_append_left (by omega), List.getElem?_eq_getElem (by omega)]
      rfl
    · rw [List.getElem?_append_right (by omega), List.getElem?_eq_none (by omega), List.getElem?_replicate, if_pos (by omega)]
      rfl
  · rw [List.getElem?_eq_none (by simpa using hi), List.getElem?_eq_none (by simp; omega)]
    rfl

omit [LinearOrder K] in
/-- **C123** is false if no points to search for are given (the points themselves are promised), and with the other backend: both raise. -/
theorem C123_default_false (root : K → K) (tree : List (V3 K) → Nat → V3 K → List Nat) (X : List (V3 K)) (Y : Option (List (V3 K))) (k : KArg) (maxd : Option K)
    (ret : Bool) : knnCall root tree .scipy X none k maxd ret = none ∧ knnCall root tree .sklearn X Y k maxd ret = none := ⟨rfl, rfl⟩

omit [Field K] [LinearOrder K] in
/-- **C123** is false for the options of the caller: the dictionary is changed. Afterwards it has the bound, whatever it had before; the
other options are as they were. -/
theorem C123_caller_false (opts : List (String × Option K)) (maxd : Option K) :
    (queryKwargsAfter opts maxd).lookup "distance_upper_bound" = some maxd ∧
      (∀ k ≠ "distance_upper_bound", (queryKwargsAfter opts maxd).lookup k = opts.lookup k) ∧
      (opts.lookup "distance_upper_bound" ≠ some maxd → queryKwargsAfter opts maxd ≠ opts) := by
  have h1 : (queryKwargsAfter opts maxd).lookup "distance_upper_bound" = some maxd := by
    induction opts with
    | nil => simp [queryKwargsAfter]
    | cons a opts ih =>
      obtain ⟨k, w⟩ := a
      unfold queryKwargsAfter at ih ⊢
      by_cases hk : k = "distance_upper_bound"
      · rw [List.filter_cons_of_neg (by simp [hk])]
        exact ih
      · rw [List.filter_cons_of_pos (by simp [hk]), List.cons_append, List.lookup_cons,
          show ("distance_upper_bound" == k) = false by simpa using Ne.symm hk]
        exact ih
  refine ⟨h1, ?_, fun h e => h (by rw [← e]; exact h1)⟩
  intro j hj
  clear h1
  induction opts with
  | nil =>
    have : (j == "distance_upper_bound") = false := by simpa using hj
    simp [queryKwargsAfter, List.lookup, this]
  | cons a opts ih =>
    obtain ⟨k, w⟩ := a
    unfold queryKwargsAfter at ih ⊢
    by_cases hk : k = "distance_upper_bound"
    · rw [List.filter_cons_of_neg (by simp [hk]), ih, List.lookup_cons, show (j == k) = false by simpa [hk] using hj]
    · rw [List.filter_cons_of_pos (by simp [hk]), List.cons_append, List.lookup_cons, List.lookup_cons, ih]

/-- A case: a bound of 5 set by the caller is replaced by 3. -/
example : queryKwargsAfter [("distance_upper_bound", some (5 : ℚ)), ("eps", some 1)] (some 3) = [("eps", some 1), ("distance_upper_bound", some 3)] := by
  decide +kernel

/-- There are trees that meet the contract. -/
theorem exists_tree : ∃ tree : List (V3 K) → Nat → V3 K → List Nat, TreeContract tree := by
  have hex : ∀ (X : List (V3 K)) (k : Nat) (p : V3 K), ∃ row, IsKNearest X p (min k X.length) row ∧
      row.Pairwise fun i j => ∀ a b, X[i]? = some a → X[j]? = some b → dist2 p a ≤ dist2 p b := by
    intro X k p
    set key : Nat → K := fun i => dist2 p (X.getD i 0) with hkey
    set all := (List.range X.length).insertionSort (fun i j => key i ≤ key j) with hall
    have hperm : all.Perm (List.range X.length) := List.perm_insertionSort _ _
    have hsort : all.Pairwise fun i j => key i ≤ key j := by
      have : Std.Total fun i j => key i ≤ key j := ⟨fun i j => le_total _ _⟩
      have : IsTrans Nat fun i j => key i ≤ key j := ⟨fun i j k => le_trans⟩
      exact List.pairwise_insertionSort _ _
    have hget : ∀ i a, X[i]? = some a → dist2 p a = key i := fun i a ha => by rw [hkey]; simp only; rw [List.getD_eq_getElem?_getD, ha, Option.getD_some]
    refine ⟨all.take k, ⟨?_, ?_, ?_, ?_⟩, ?_⟩
    · rw [List.length_take, hperm.length_eq, List.length_range]
    · exact (hperm.nodup_iff.2 List.nodup_range).sublist (List.take_sublist _ _)
    · intro j hj
      exact List.mem_range.1 (hperm.mem_iff.1 (List.mem_of_mem_take hj))
    · intro j hj l hl hlr c d hc hd
      have hm : l ∈ all := hperm.mem_iff.2 (List.mem_range.2 hl)
      rw [← List.take_append_drop k all] at hm hsort
      rcases List.mem_append.1 hm with hm | hm
      · exact absurd hm hlr
      · have := (List.pairwise_append.1 hsort).2.2 j hj l hm
        rw [← hget j c hc, ← hget l d hd] at this
        exact this
    · refine (hsort.sublist (List.take_sublist _ _)).imp fun {i j} hij a b ha hb => ?_
      rw [hget i a ha, hget j b hb]
      exact hij
  choose tree ht using hex
  exact ⟨tree, fun X k p => ht X k p⟩

end

/-- Two points far from each other. -/
def knnPair : List (V3 ℚ) := [⟨0, 0, 0⟩, ⟨5, 0, 0⟩]

/-- **C123** is false for the distance given: a neighbour at distance five is returned although only those within one are asked for. -/
theorem C123_distance_false : ¬ ∀ (tree : List (V3 ℚ) → Nat → V3 ℚ → List Nat) (X Y : List (V3 ℚ)) (k : Nat) (m : ℚ) (t : List (List Nat)), TreeContract tree →
    knnCall id tree .scipy X (some Y) (.one k) (some m) false = some ⟨.table t, none⟩ → ∀ (i c j : Nat) (p q : V3 ℚ), Y[i]? = some p → nodeAt t i c = some j →
      X[j]? = some q → dist2 p q ≤ m ^ 2 := by
  intro h
  obtain ⟨tree, hc⟩ := exists_tree (K := ℚ)
  obtain ⟨a, d, h1, -, -, -, h5⟩ := C123_neighbours_partial (root := id) hc knnPair [⟨0, 0, 0⟩] (some 1) (k := 2) (le_refl _)
  obtain ⟨j, e, g1, g2, g3⟩ := h5 0 1 ⟨0, 0, 0⟩ rfl (by decide)
  obtain ⟨q, hq, hr, -⟩ := g3.1 (by decide)
  have := h tree knnPair [⟨0, 0, 0⟩] 2 1 a hc h1 0 1 j ⟨0, 0, 0⟩ q rfl g1 hq
  have hj : j < 2 := (List.getElem?_eq_some_iff.1 hq).1
  match j, hj with
  | 0, _ =>
    obtain rfl : q = ⟨0, 0, 0⟩ := (Option.some.inj hq).symm
    have := hr.2
    revert this
    decide +kernel
  | 1, _ =>
    obtain rfl : q = ⟨5, 0, 0⟩ := (Option.some.inj hq).symm
    have h25 : dist2 (⟨0, 0, 0⟩ : V3 ℚ) ⟨5, 0, 0⟩ = 25 := by decide +kernel
    rw [h25] at this
    norm_num at this

end PM
