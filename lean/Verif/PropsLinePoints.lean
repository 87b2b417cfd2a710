import Verif.LinePoints
import Verif.PropsLocate
import Verif.PropsMisc
import Verif.PropsGenShape

/-!
# C82: points of line cells
-/

namespace PM

section
variable {K : Type} [Field K]

/-- Specification: the point of the segment from `a` to `b` at the share `t` of the way. -/
def OnSegment (a b : V3 K) (t : K) (x : V3 K) : Prop := x - a = t • (b - a)

/-- Specification: row `k` of `r` belongs to the cell `cells[k]` of the mesh, and its entry `j` lies on the way from the first to the
last node of the cell, at the share of the parameter `points[j]` in the range `s`. -/
def LineEval (coords : List (V3 K)) (topo : Topo) (cells : List Nat) (points : List K) (s : K × K) (r : List (List (V3 K))) : Prop :=
  r.length = cells.length ∧ ∀ (k c : Nat) (cell : List Nat), cells[k]? = some c → topo[c]? = some cell →
    ∃ e, r[k]? = some e ∧ e.length = points.length ∧ ∀ (j : Nat) (p : K) (m n : Nat) (a b : V3 K), points[j]? = some p →
      cell.head? = some m → cell.getLast? = some n → coords[m]? = some a → coords[n]? = some b →
      ∃ x, e[j]? = some x ∧ OnSegment a b ((p - s.1) / (s.2 - s.1)) x

theorem reshapeCells_get {α : Type} {nE nP : Nat} {l : List α} (h : l.length = nE * nP) :
    ∃ r, reshapeCells nE nP l = some r ∧ r.length = nE ∧ r.flatten = l ∧
      ∀ i, i < nE → ∃ e, r[i]? = some e ∧ e.length = nP ∧ ∀ j, j < nP → e[j]? = l[i * nP + j]? := by
  unfold reshapeCells
  rw [if_pos h]
  refine ⟨_, rfl, by simp, ?_, ?_⟩
  · induction nE generalizing l with
    | zero => simp at h; simp [h]
    | succ n ih =>
      rw [List.range_succ_eq_map, List.map_cons, List.flatten_cons, List.map_map]
      have h2 : (l.drop nP).length = n * nP := by
        rw [List.length_drop, h, Nat.succ_mul]; omega
      have h3 := ih h2
      simp only [List.drop_drop] at h3
      have h4 : ((fun i => (l.drop (i * nP)).take nP) ∘ Nat.succ) = fun i => (l.drop (nP + i * nP)).take nP := by
        funext i
        simp only [Function.comp, Nat.succ_mul, Nat.add_comm]
      rw [h4, h3]
      simp
  · intro i hi
    refine ⟨(l.drop (i * nP)).take nP, by simp [hi], ?_, fun j hj => ?_⟩
    · rw [List.length_take, List.length_drop, h]
      have : (i + 1) * nP ≤ nE * nP := Nat.mul_le_mul_right _ hi
      rw [Nat.succ_mul] at this
      omega
    · rw [List.getElem?_take, if_pos hj, List.getElem?_drop]

/-- The common part: points of the given rows, flat and as a grid. -/
theorem linePtsOut_spec {ord : List (Nat × V3 K) → List (Nat × V3 K)} (hord : ∀ w, (ord w).Perm w) {ts : List K}
    {ec : List (List (V3 K))} (hne : ∀ e ∈ ec, e ≠ []) :
    ∃ r, linePtsOut ord ts ec false = some (.grid r) ∧ linePtsOut ord ts ec true = some (.flat r.flatten) ∧ r.length = ec.length ∧
      ∀ (i : Nat) (e : List (V3 K)), ec[i]? = some e → ∃ f, r[i]? = some f ∧ f.length = ts.length ∧
        ∀ (j : Nat) (t : K) (a b : V3 K), ts[j]? = some t → e.head? = some a → e.getLast? = some b →
          f[j]? = some ((1 - t) • a + t • b) := by
  obtain ⟨w, h1, h2⟩ := C58_points (pcoords := ts) hne
  obtain ⟨h3, h4⟩ := h2 (ord w) (hord w).symm
  obtain ⟨r, h5, h6, h7, h8⟩ := reshapeCells_get h3
  refine ⟨r, ?_, ?_, h6, ?_⟩
  · simp [linePtsOut, h1, h5]
  · simp [linePtsOut, h1, h7]
  · intro i e he
    obtain ⟨f, h9, h10, h11⟩ := h8 i (List.getElem?_eq_some_iff.1 he).1
    refine ⟨f, h9, h10, fun j t a b hj ha hb => ?_⟩
    rw [h11 j (List.getElem?_eq_some_iff.1 hj).1]
    exact h4 i j e t a b he hj ha hb

variable [DecidableEq K]

/-- **C82** points of chosen line cells. The cells are given by their ids, which have to be the row numbers of the block: any list of
cells (with repetitions), any points and any proper range. The result has a row for every chosen cell and a point for every
parameter, or with `flatten` the same points in one list, cell after cell. -/
theorem C82_cells_partial {ord : List (Nat × V3 K) → List (Nat × V3 K)} (hord : ∀ w, (ord w).Perm w) {lco : List K}
    {coords : List (V3 K)} {topo : Topo} {cells : List Nat} {points : List K} {rng : Option (K × K)}
    (hne : cells ≠ []) (hin : ∀ c ∈ cells, c < topo.length) (hnode : ∀ cell ∈ topo, cell ≠ [] ∧ ∀ n ∈ cell, n < coords.length)
    (hrng : (rng.getD (0, 1)).1 ≠ (rng.getD (0, 1)).2) :
    ∃ r, linePoints ord lco coords (List.range topo.length) topo (some points) (some cells) rng false = some (.grid r) ∧
      linePoints ord lco coords (List.range topo.length) topo (some points) (some cells) rng true = some (.flat r.flatten) ∧
      LineEval coords topo cells points (rng.getD (0, 1)) r := by
  obtain ⟨ec, h4, h5, h6⟩ := mapM_exists (f := fun row => gather? coords row) (l := topo)
    (P := fun _ cell e => e.length = cell.length ∧ ∀ (j n : Nat), cell[j]? = some n → e[j]? = coords[n]?)
    (fun i row hi => gather?_eq_some fun n hn => (hnode row (List.mem_of_getElem? hi)).2 n hn)
  have hf : cells.filter (fun c => (List.range topo.length).contains c) = cells := by
    rw [List.filter_eq_self]
    intro c hc
    simpa using hin c hc
  obtain ⟨rows, g1, g2, g3⟩ := gather?_eq_some (a := ec) (inds := cells) (by rw [h5]; exact hin)
  have hrow : ∀ (k c : Nat) (cell : List Nat), cells[k]? = some c → topo[c]? = some cell →
      ∃ e, rows[k]? = some e ∧ e.length = cell.length ∧ ∀ (j n : Nat), cell[j]? = some n → e[j]? = coords[n]? := by
    intro k c cell hk hc
    have hcl : c < ec.length := by rw [h5]; exact (List.getElem?_eq_some_iff.1 hc).1
    have := h6 c cell ec[c] hc (List.getElem?_eq_getElem hcl)
    exact ⟨ec[c], by rw [g3 k c hk, List.getElem?_eq_getElem hcl], this⟩
  have hrne : ∀ e ∈ rows, e ≠ [] := by
    intro e he
    obtain ⟨k, hk, rfl⟩ := List.mem_iff_getElem.1 he
    have hk' : k < cells.length := by rw [← g2]; exact hk
    have hc := hin cells[k] (List.getElem_mem hk')
    obtain ⟨e, e1, e2, -⟩ := hrow k cells[k] topo[cells[k]] (List.getElem?_eq_getElem hk') (List.getElem?_eq_getElem hc)
    rw [List.getElem?_eq_getElem hk] at e1
    obtain rfl := Option.some.inj e1
    intro h0
    rw [h0, List.length_nil] at e2
    exact (hnode _ (List.getElem_mem hc)).1 (List.length_eq_zero_iff.1 e2.symm)
  set s := rng.getD (0, 1) with hs
  set ts := points.map fun p => (p - s.1) / (s.2 - s.1) with hts
  obtain ⟨r, r1, r2, r3, r4⟩ := linePtsOut_spec hord (ts := ts) hrne
  have key : ∀ fl, linePoints ord lco coords (List.range topo.length) topo (some points) (some cells) rng fl =
      linePtsOut ord ts rows fl := by
    intro fl
    unfold linePoints
    rw [h4, Option.bind_some, if_neg (by simp)]
    have : lineCells (List.range topo.length) ec (some cells) = some (some rows) := by
      simp only [lineCells, hf]
      rw [if_neg (by simpa using hne), g1]
      rfl
    rw [this, Option.bind_some]
    have : lineParams lco (some points) rng = some ts := by
      simp only [lineParams, toUnit, ← hs]
      rw [if_neg hrng]
    simp only [this, Option.bind_some]
  refine ⟨r, (key false).trans r1, (key true).trans r2, by rw [r3, g2], fun k c cell hk hc => ?_⟩
  obtain ⟨e, e1, e2, e3⟩ := hrow k c cell hk hc
  obtain ⟨f, f1, f2, f3⟩ := r4 k e e1
  refine ⟨f, f1, by rw [f2, hts, List.length_map], fun j p m n a b hp hm hn ha hb => ?_⟩
  have hhead : e.head? = some a := by
    rw [List.head?_eq_getElem?] at hm ⊢
    rw [e3 0 m hm, ha]
  have hlast : e.getLast? = some b := by
    rw [List.getLast?_eq_getElem?] at hn ⊢
    rw [e2, e3 _ n hn, hb]
  refine ⟨_, f3 j ((p - s.1) / (s.2 - s.1)) a b (by rw [hts, List.getElem?_map, hp]; rfl) hhead hlast, ?_⟩
  unfold OnSegment
  ext <;> simp <;> ring

/-- **C82** points of all line cells. -/
theorem C82_all {ord : List (Nat × V3 K) → List (Nat × V3 K)} (hord : ∀ w, (ord w).Perm w) {lco : List K} {ids : List Nat}
    {coords : List (V3 K)} {topo : Topo} {points : List K} {rng : Option (K × K)}
    (hnode : ∀ cell ∈ topo, cell ≠ [] ∧ ∀ n ∈ cell, n < coords.length) (hrng : (rng.getD (0, 1)).1 ≠ (rng.getD (0, 1)).2) :
    ∃ r, linePoints ord lco coords ids topo (some points) none rng false = some (.grid r) ∧
      linePoints ord lco coords ids topo (some points) none rng true = some (.flat r.flatten) ∧
      LineEval coords topo (List.range topo.length) points (rng.getD (0, 1)) r := by
  obtain ⟨ec, h4, h5, h6⟩ := mapM_exists (f := fun row => gather? coords row) (l := topo)
    (P := fun _ cell e => e.length = cell.length ∧ ∀ (j n : Nat), cell[j]? = some n → e[j]? = coords[n]?)
    (fun i row hi => gather?_eq_some fun n hn => (hnode row (List.mem_of_getElem? hi)).2 n hn)
  by_cases ht : topo = []
  · subst ht
    simp only [List.mapM_nil, Option.pure_def, Option.some.injEq] at h4
    subst h4
    set s := rng.getD (0, 1) with hs
    obtain ⟨r, r1, r2, r3, -⟩ := linePtsOut_spec hord (ts := points.map fun p => (p - s.1) / (s.2 - s.1)) (ec := []) (by simp)
    refine ⟨r, ?_, ?_, ?_⟩
    · simp only [linePoints, lineCells, lineParams, toUnit, ← hs, if_neg hrng]
      simpa using r1
    · simp only [linePoints, lineCells, lineParams, toUnit, ← hs, if_neg hrng]
      simpa using r2
    · exact ⟨by simpa using r3, fun k c cell hk => by simp at hk⟩
  · obtain ⟨r, r1, r2, r3⟩ := C82_cells_partial hord (lco := lco) (coords := coords) (topo := topo) (cells := List.range topo.length)
      (points := points) (rng := rng) (by simpa using ht) (by simp) hnode hrng
    have : ∀ fl, linePoints ord lco coords ids topo (some points) none rng fl =
        linePoints ord lco coords (List.range topo.length) topo (some points) (some (List.range topo.length)) rng fl := by
      intro fl
      unfold linePoints
      rw [h4, Option.bind_some, Option.bind_some, if_neg (by simp), if_neg (by simp)]
      have hf : (List.range topo.length).filter (fun c => (List.range topo.length).contains c) = List.range topo.length := by
        rw [List.filter_eq_self]
        intro c hc
        simpa using List.mem_range.1 hc
      have hg : gather? ec (List.range topo.length) = some ec := by
        rw [← h5]
        unfold gather?
        rw [mapM_some (g := fun i => ec.getD i [])]
        · congr 1
          apply List.ext_getElem
          · simp
          · intro i h1 h2
            simp [h2]
        · intro i hi
          have hi := List.mem_range.1 hi
          simp [hi]
      have : lineCells (List.range topo.length) ec (some (List.range topo.length)) = lineCells ids ec none := by
        simp only [lineCells, hf]
        rw [if_neg (by simpa using ht), hg]
        rfl
      rw [this]
    exact ⟨r, (this false).trans r1, (this true).trans r2, r3⟩

/-- **C82** without points and cells: the nodes of all cells. -/
theorem C82_nodes {ord : List (Nat × V3 K) → List (Nat × V3 K)} {lco : List K} {ids : List Nat} {coords : List (V3 K)} {topo : Topo}
    {rng : Option (K × K)} {fl : Bool} (hnode : ∀ cell ∈ topo, ∀ n ∈ cell, n < coords.length) :
    ∃ r, linePoints ord lco coords ids topo none none rng fl = some (.grid r) ∧ r.length = topo.length ∧
      ∀ (k : Nat) (cell : List Nat), topo[k]? = some cell →
        ∃ e, r[k]? = some e ∧ e.length = cell.length ∧ ∀ (j n : Nat), cell[j]? = some n → e[j]? = coords[n]? := by
  obtain ⟨r, h4, h5, h6⟩ := mapM_exists (f := fun row => gather? coords row) (l := topo)
    (P := fun _ cell e => e.length = cell.length ∧ ∀ (j n : Nat), cell[j]? = some n → e[j]? = coords[n]?)
    (fun i row hi => gather?_eq_some fun n hn => hnode row (List.mem_of_getElem? hi) n hn)
  refine ⟨r, by simp [linePoints, h4], h5, fun k cell hk => ?_⟩
  have hkr : k < r.length := by rw [h5]; exact (List.getElem?_eq_some_iff.1 hk).1
  obtain ⟨e1, e2⟩ := h6 k cell r[k] hk (List.getElem?_eq_getElem hkr)
  exact ⟨r[k], List.getElem?_eq_getElem hkr, e1, e2⟩

/-- **C82** if no chosen cell is in the block, the result is the empty dictionary. -/
theorem C82_none {ord : List (Nat × V3 K) → List (Nat × V3 K)} {lco : List K} {ids : List Nat} {coords : List (V3 K)} {topo : Topo}
    {points : Option (List K)} {cells : List Nat} {rng : Option (K × K)} {fl : Bool}
    (hnode : ∀ cell ∈ topo, ∀ n ∈ cell, n < coords.length) (h : ∀ c ∈ cells, c ∉ ids) :
    linePoints ord lco coords ids topo points (some cells) rng fl = some .empty := by
  obtain ⟨r, h4, -, -⟩ := mapM_exists (f := fun row => gather? coords row) (l := topo)
    (P := fun _ cell e => e.length = cell.length ∧ ∀ (j n : Nat), cell[j]? = some n → e[j]? = coords[n]?)
    (fun i row hi => gather?_eq_some fun n hn => hnode row (List.mem_of_getElem? hi) n hn)
  have hf : cells.filter (fun c => ids.contains c) = [] := by
    rw [List.filter_eq_nil_iff]
    intro c hc
    simpa using h c hc
  unfold linePoints
  rw [h4, Option.bind_some, if_neg (by simp)]
  simp only [lineCells, hf]
  rfl

/-- **C82** a range of length zero is refused. -/
theorem C82_range {ord : List (Nat × V3 K) → List (Nat × V3 K)} {lco : List K} {ids : List Nat} {coords : List (V3 K)} {topo : Topo}
    {points : List K} {c : K} {fl : Bool} : linePoints ord lco coords ids topo (some points) none (some (c, c)) fl = none := by
  unfold linePoints
  cases topo.mapM fun row => gather? coords row <;> simp [lineCells, lineParams, toUnit]

omit [DecidableEq K] in
/-- **C82** and shape functions: at the master coordinate `u` (range [-1, 1]) the point is that of the shape functions of the
two-noded line. -/
theorem C82_L2 [CharZero K] {a b x : V3 K} {u : K} (h : OnSegment a b ((u - -1) / (1 - -1)) x) :
    x = lincomb (Shp.shpL2.map fun e => e.eval ⟨u, 0, 0⟩) [a, b] := by
  have h2 : (2 : K) ≠ 0 := two_ne_zero
  have hd : (1 - -1 : K) = 2 := by norm_num
  unfold OnSegment at h
  rw [hd] at h
  have hx := congrArg V3.x h
  have hy := congrArg V3.y h
  have hz := congrArg V3.z h
  simp only [V3.sub_x, V3.sub_y, V3.sub_z, V3.smul_x, V3.smul_y, V3.smul_z] at hx hy hz
  have e : (Shp.shpL2.map fun e => e.eval (⟨u, 0, 0⟩ : V3 K)) = [(1 - u) / 2, (1 + u) / 2] := by
    have h1 : ∀ e : PE, (e / (2 : Nat)).eval (⟨u, 0, 0⟩ : V3 K) = e.eval ⟨u, 0, 0⟩ / 2 := by
      intro e
      change ((1 / ((2 : Nat) : ℚ) : ℚ) : K) * _ = _
      push_cast
      ring
    have h3 : (1 : PE).eval (⟨u, 0, 0⟩ : V3 K) = 1 := by
      change (((1 : Nat) : ℚ) : K) = 1
      simp
    simp only [Shp.shpL2, List.map_cons, List.map_nil, h1, PE.eval_sub, PE.eval_add, h3]
    rfl
  rw [e]
  ext
  · rw [sub_eq_iff_eq_add.1 hx]; simp [lincomb]; field_simp; ring
  · rw [sub_eq_iff_eq_add.1 hy]; simp [lincomb]; field_simp; ring
  · rw [sub_eq_iff_eq_add.1 hz]; simp [lincomb]; field_simp; ring

omit [DecidableEq K] in
/-- **C82** and shape functions of the three-noded line, `u (u - 1) / 2`, `1 - u²`, `u (u + 1) / 2`: the point is the right one for
every parameter if the middle node is in the middle of the others. -/
theorem C82_L3_partial [CharZero K] {a m b x : V3 K} {u : K} (hm : m + m = a + b) (h : OnSegment a b ((u - -1) / (1 - -1)) x) :
    x = lincomb [u * (u - 1) / 2, 1 - u * u, u * (u + 1) / 2] [a, m, b] := by
  have h2 : (2 : K) ≠ 0 := two_ne_zero
  have hd : (1 - -1 : K) = 2 := by norm_num
  unfold OnSegment at h
  rw [hd] at h
  have hx := congrArg V3.x h
  have hy := congrArg V3.y h
  have hz := congrArg V3.z h
  have mx := congrArg V3.x hm
  have my := congrArg V3.y hm
  have mz := congrArg V3.z hm
  simp only [V3.sub_x, V3.sub_y, V3.sub_z, V3.smul_x, V3.smul_y, V3.smul_z, V3.add_x, V3.add_y, V3.add_z] at hx hy hz mx my mz
  ext
  · have : m.x = (a.x + b.x) / 2 := by field_simp; linear_combination mx
    rw [sub_eq_iff_eq_add.1 hx]; simp [lincomb, this]; field_simp; ring
  · have : m.y = (a.y + b.y) / 2 := by field_simp; linear_combination my
    rw [sub_eq_iff_eq_add.1 hy]; simp [lincomb, this]; field_simp; ring
  · have : m.z = (a.z + b.z) / 2 := by field_simp; linear_combination mz
    rw [sub_eq_iff_eq_add.1 hz]; simp [lincomb, this]; field_simp; ring

/-- **C82** choosing two-noded cells without giving points gives their nodes, as for all cells. -/
theorem C82_default [CharZero K] {ord : List (Nat × V3 K) → List (Nat × V3 K)} (hord : ∀ w, (ord w).Perm w)
    {coords : List (V3 K)} {topo : Topo} {cells : List Nat} {rng : Option (K × K)}
    (hne : cells ≠ []) (hin : ∀ c ∈ cells, c < topo.length) (hnode : ∀ cell ∈ topo, cell.length = 2 ∧ ∀ n ∈ cell, n < coords.length) :
    ∃ r, linePoints ord [-1, 1] coords (List.range topo.length) topo none (some cells) rng false = some (.grid r) ∧
      r.length = cells.length ∧ ∀ (k c m n : Nat), cells[k]? = some c → topo[c]? = some [m, n] →
        ∃ a b, coords[m]? = some a ∧ coords[n]? = some b ∧ r[k]? = some [a, b] := by
  have hd : (1 - -1 : K) = 2 := by norm_num
  have h2 : (2 : K) ≠ 0 := two_ne_zero
  obtain ⟨r, r1, -, r3, r4⟩ := C82_cells_partial hord (lco := [-1, 1]) (coords := coords) (topo := topo) (cells := cells)
    (points := [-1, 1]) (rng := some (-1, 1)) hne hin
    (fun cell hc => ⟨fun h0 => by have := (hnode cell hc).1; simp [h0] at this, (hnode cell hc).2⟩) (by
      intro h
      apply h2
      simp only [Option.getD_some] at h
      linear_combination -h)
  refine ⟨r, ?_, r3, fun k c m n hk hc => ?_⟩
  · rw [← r1]
    unfold linePoints
    rfl
  · have hcell := hnode _ (List.mem_of_getElem? hc)
    have hm := hcell.2 m (by simp)
    have hn := hcell.2 n (by simp)
    refine ⟨coords[m], coords[n], List.getElem?_eq_getElem hm, List.getElem?_eq_getElem hn, ?_⟩
    obtain ⟨e, e1, e2, e3⟩ := r4 k c [m, n] hk hc
    obtain ⟨x, x1, x2⟩ := e3 0 (-1) m n _ _ rfl rfl rfl (List.getElem?_eq_getElem hm) (List.getElem?_eq_getElem hn)
    obtain ⟨y, y1, y2⟩ := e3 1 1 m n _ _ rfl rfl rfl (List.getElem?_eq_getElem hm) (List.getElem?_eq_getElem hn)
    have hx : x = coords[m] := by
      simp only [OnSegment, Option.getD_some, sub_self, zero_div] at x2
      have hx := congrArg V3.x x2
      have hy := congrArg V3.y x2
      have hz := congrArg V3.z x2
      simp only [V3.sub_x, V3.sub_y, V3.sub_z, V3.smul_x, V3.smul_y, V3.smul_z, zero_mul] at hx hy hz
      exact V3.ext (sub_eq_zero.1 hx) (sub_eq_zero.1 hy) (sub_eq_zero.1 hz)
    have hy : y = coords[n] := by
      simp only [OnSegment, Option.getD_some, hd, div_self h2] at y2
      have hx := congrArg V3.x y2
      have hy := congrArg V3.y y2
      have hz := congrArg V3.z y2
      simp only [V3.sub_x, V3.sub_y, V3.sub_z, V3.smul_x, V3.smul_y, V3.smul_z, one_mul, sub_left_inj] at hx hy hz
      exact V3.ext hx hy hz
    rw [e1]
    congr 1
    match e, e2 with
    | [p, q], _ =>
      simp only [List.getElem?_cons_zero, Option.some.injEq] at x1
      simp only [List.getElem?_cons_succ, List.getElem?_cons_zero, Option.some.injEq] at y1
      rw [x1, y1, hx, hy]

end

/-- A concrete case: two lines, the second one chosen twice, at a quarter of the range [0, 4]. -/
example : linePoints id [-1, 1] [(⟨0, 0, 0⟩ : V3 ℚ), ⟨4, 0, 0⟩, ⟨4, 8, 0⟩] [0, 1] [[0, 1], [1, 2]] (some [1, 4]) (some [1, 1])
    (some (0, 4)) false = some (.grid [[⟨4, 2, 0⟩, ⟨4, 8, 0⟩], [⟨4, 2, 0⟩, ⟨4, 8, 0⟩]]) := by decide +kernel

/-- **C82** fails for cells of a later block: ids are used as row numbers. The cell 1 is the first row of the block, but the points are
those of the second. -/
theorem C82_ids_false : ∃ (coords : List (V3 ℚ)) (ids : List Nat) (topo : Topo) (c : Nat), ids.Nodup ∧ ids.length = topo.length ∧
    topo[ids.idxOf c]? = some [0, 1] ∧ coords[0]? = some ⟨0, 0, 0⟩ ∧
    linePoints id [-1, 1] coords ids topo (some [0]) (some [c]) none false = some (.grid [[⟨1, 0, 0⟩]]) ∧
    linePoints id [-1, 1] coords ids topo (some [0]) (some [2]) none false = none :=
  ⟨[⟨0, 0, 0⟩, ⟨1, 0, 0⟩, ⟨2, 0, 0⟩], [1, 2], [[0, 1], [1, 2]], 1, by decide, rfl, rfl, rfl, by decide +kernel, by decide +kernel⟩

/-- **C82** fails for curved three-noded lines: choosing the only cell of a block gives other points than not choosing, the middle node
is not among them. -/
theorem C82_L3_false : ∃ (coords : List (V3 ℚ)) (topo : Topo),
    linePoints id [-1, 0, 1] coords [0] topo none none none false = some (.grid [[⟨0, 0, 0⟩, ⟨1, 1, 0⟩, ⟨2, 0, 0⟩]]) ∧
    linePoints id [-1, 0, 1] coords [0] topo none (some [0]) none false = some (.grid [[⟨0, 0, 0⟩, ⟨1, 0, 0⟩, ⟨2, 0, 0⟩]]) :=
  ⟨[⟨0, 0, 0⟩, ⟨1, 1, 0⟩, ⟨2, 0, 0⟩], [[0, 1, 2]], by decide +kernel, by decide +kernel⟩

end PM
