import Verif.PropsMonoms

/-!
# C132: monomials of arrays of points
-/

namespace PM

/-! ## specification -/

/-- The monomials of the classes (`polybase` of cells/*.py). -/
def solidBase : Mono.Solid → List PE
  | .TET4 => Shp.baseTET4 | .TET10 => Shp.baseTET10 | .H8 => Shp.baseH8 | .H27 => Shp.baseH27 | .W6 => Shp.baseW6 | .W18 => Shp.baseW18

section
variable {K : Type} [Field K]

/-- One row for every point, in their order: the values of the monomials at the point. -/
def RowsAt (c : Mono.Solid) (ps : List (V3 K)) (t : List (List K)) : Prop :=
  List.Forall₂ (fun p row => row = (solidBase c).map (PE.eval p)) ps t

/-! ## proofs -/

theorem one_eq (c : Mono.Solid) (p : V3 K) : c.one p = (solidBase c).map (PE.eval p) := by
  obtain ⟨-, -, -, -, -, -, h1, h2, h3, h4, h5, h6⟩ := C84_monoms p
  cases c
  · exact h1
  · exact h2
  · exact h3
  · exact h4
  · exact h5
  · exact h6

theorem one_length {c : Mono.Solid} (hc : c ≠ .TET4) (p : V3 K) : (c.one p).length = c.cols := by
  cases c <;> first | exact absurd rfl hc | rfl

theorem rowsAt_map (c : Mono.Solid) (ps : List (V3 K)) : RowsAt c ps (ps.map c.one) := by
  unfold RowsAt
  rw [List.forall₂_map_right_iff]
  exact List.forall₂_same.2 fun p _ => one_eq c p

theorem RowsAt.unique {c : Mono.Solid} {ps : List (V3 K)} {t : List (List K)} (h : RowsAt c ps t) : t = ps.map c.one := by
  unfold RowsAt at h
  induction h with
  | nil => rfl
  | cons h _ ih => rw [List.map_cons, h, ih, one_eq]

/-- **C132** one point: the row of the values of all monomials of the class, for all six classes. -/
theorem C132_point (c : Mono.Solid) (p : V3 K) :
    Mono.call c (.point p) = some (.row ((solidBase c).map (PE.eval p))) := by
  rw [Mono.call, one_eq]

/-- **C132** points: the table with the row of every point, for all classes but `TET4`. -/
theorem C132_points_partial {c : Mono.Solid} (hc : c ≠ .TET4) (ps : List (V3 K)) (r : Mono.Res K) :
    Mono.call c (.points ps) = some r ↔ ∃ t, r = .table t ∧ RowsAt c ps t := by
  rw [Mono.call, multi_some (one_length hc), Option.map_some, Option.some_inj]
  constructor
  · rintro rfl
    exact ⟨_, rfl, rowsAt_map c ps⟩
  · rintro ⟨t, rfl, h⟩
    rw [h.unique]

/-- **C132** (disagreement) the ten monomials of `TET4` are not the four columns of the arrays: every array of at least one point is
refused, alone and in cells. -/
theorem C132_TET4_false {ps : List (V3 K)} (h : ps ≠ []) (cs : List (List (V3 K))) :
    (∀ p : V3 K, ∃ r, Mono.call .TET4 (.point p) = some (.row r) ∧ r.length = 10) ∧
    Mono.call .TET4 (.points ps) = none ∧ (ps ∈ cs → Mono.call .TET4 (.cells cs) = none) := by
  have e : Mono.multi 4 Mono.TET4 ps = none := C84_TET4_false h
  refine ⟨fun p => ⟨_, rfl, rfl⟩, by show (Mono.multi 4 Mono.TET4 ps).map _ = none; rw [e]; rfl, fun hm => ?_⟩
  have : Mono.bulk 4 Mono.TET4 cs = none := mapM_none hm (by rw [e]; rfl)
  show (Mono.bulk 4 Mono.TET4 cs).map _ = none
  rw [this]
  rfl

theorem fitRows_some {β : Type} {n : Nat} {l r : List β} : Mono.fitRows n l = some r ↔
    (l.length = n ∧ r = l) ∨ (n ≠ 1 ∧ ∃ a, l = [a] ∧ r = List.replicate n a) := by
  unfold Mono.fitRows
  split
  · rename_i h
    constructor
    · rintro ⟨⟩
      exact .inl ⟨h, rfl⟩
    · rintro (⟨-, rfl⟩ | ⟨h1, a, rfl, rfl⟩)
      · rfl
      · exact absurd h.symm h1
  · rename_i h
    split
    · rename_i a
      constructor
      · rintro ⟨⟩
        exact .inr ⟨fun e => h e.symm, a, rfl, rfl⟩
      · rintro (⟨h1, -⟩ | ⟨-, b, hb, rfl⟩)
        · exact absurd h1 h
        · rw [List.cons.inj hb |>.1]
    · rename_i hl
      constructor
      · rintro ⟨⟩
      · rintro (⟨h1, -⟩ | ⟨-, b, hb, -⟩)
        · exact absurd h1 h
        · exact absurd hb (hl b)

/-- **C132** cells with as many points as monomials: one table for every cell, the rows of its points. -/
theorem C132_cells_partial {c : Mono.Solid} (hc : c ≠ .TET4) {cs : List (List (V3 K))} (h : ∀ ps ∈ cs, ps.length = (solidBase c).length) :
    ∃ ts, Mono.call c (.cells cs) = some (.tables ts) ∧ List.Forall₂ (RowsAt c) cs ts := by
  have hl : (solidBase c).length = c.cols := by cases c <;> first | exact absurd rfl hc | rfl
  refine ⟨cs.map fun ps => ps.map c.one, ?_, ?_⟩
  · rw [Mono.call, bulk_some (one_length hc) cs fun ps hp => (h ps hp).trans hl]
    rfl
  · rw [List.forall₂_map_right_iff]
    exact List.forall₂_same.2 fun ps _ => rowsAt_map c ps

/-- **C132** (exact account) cells: the tables have as many rows as there are monomials, so the call works exactly if every cell has as
many points as monomials or a single point, whose row is then repeated. -/
theorem C132_cells_exact {c : Mono.Solid} (hc : c ≠ .TET4) (cs : List (List (V3 K))) (r : Mono.Res K) :
    Mono.call c (.cells cs) = some r ↔ ∃ ts, r = .tables ts ∧
      List.Forall₂ (fun ps t => (ps.length = (solidBase c).length ∧ RowsAt c ps t) ∨
        ∃ p, ps = [p] ∧ t = List.replicate (solidBase c).length ((solidBase c).map (PE.eval p))) cs ts := by
  have hl : (solidBase c).length = c.cols := by cases c <;> first | exact absurd rfl hc | rfl
  have h1 : c.cols ≠ 1 := by cases c <;> decide
  have key : ∀ (ps : List (V3 K)) (t : List (List K)), ((Mono.multi c.cols c.one ps).bind (Mono.fitRows c.cols)) = some t ↔
      ((ps.length = (solidBase c).length ∧ RowsAt c ps t) ∨
        ∃ p, ps = [p] ∧ t = List.replicate (solidBase c).length ((solidBase c).map (PE.eval p))) := by
    intro ps t
    rw [multi_some (one_length hc), Option.bind_some, fitRows_some, List.length_map, hl]
    constructor
    · rintro (⟨a, rfl⟩ | ⟨-, a, ha, rfl⟩)
      · exact .inl ⟨a, rowsAt_map c ps⟩
      · obtain ⟨p, rfl, rfl⟩ := List.map_eq_singleton_iff.1 ha
        exact .inr ⟨p, rfl, by rw [one_eq]⟩
    · rintro (⟨a, b⟩ | ⟨p, rfl, rfl⟩)
      · exact .inl ⟨a, b.unique⟩
      · exact .inr ⟨h1, _, rfl, by rw [one_eq]⟩
  have e : ∀ ts, Mono.bulk c.cols c.one cs = some ts ↔ List.Forall₂ (fun ps t => (ps.length = (solidBase c).length ∧ RowsAt c ps t) ∨
        ∃ p, ps = [p] ∧ t = List.replicate (solidBase c).length ((solidBase c).map (PE.eval p))) cs ts := by
    intro ts
    rw [Mono.bulk, mapM_eq_some_iff]
    constructor <;> intro h
    · exact h.imp fun ps t => (key ps t).1
    · exact h.imp fun ps t => (key ps t).2
  rw [Mono.call, Option.map_eq_some_iff]
  constructor
  · rintro ⟨ts, h, rfl⟩
    exact ⟨ts, rfl, (e ts).1 h⟩
  · rintro ⟨ts, rfl, h⟩
    exact ⟨ts, (e ts).2 h, rfl⟩

/-- **C132** (disagreement) cells of any other number of points, for instance the points of a quadrature rule, are refused, and one point
per cell gives as many rows as there are monomials and not one. -/
theorem C132_count_false {c : Mono.Solid} (hc : c ≠ .TET4) {cs : List (List (V3 K))} :
    ((∃ ps ∈ cs, ps.length ≠ 1 ∧ ps.length ≠ (solidBase c).length) → Mono.call c (.cells cs) = none) ∧
    ∀ p : V3 K, ∃ t, Mono.call c (.cells [[p]]) = some (.tables [t]) ∧ t.length = (solidBase c).length ∧ ¬ RowsAt c [p] t := by
  constructor
  · rintro ⟨ps, hp, h1, h2⟩
    by_contra h
    obtain ⟨r, hr⟩ := Option.ne_none_iff_exists'.1 h
    obtain ⟨ts, -, hf⟩ := (C132_cells_exact hc cs r).1 hr
    obtain ⟨i, hi, rfl⟩ := List.getElem_of_mem hp
    have hi' : i < ts.length := hf.length_eq ▸ hi
    rcases (List.forall₂_iff_get.1 hf).2 i hi hi' with ⟨a, -⟩ | ⟨p, a, -⟩
    · exact h2 a
    · exact h1 (by rw [List.get_eq_getElem] at a; rw [a]; rfl)
  · intro p
    refine ⟨List.replicate (solidBase c).length ((solidBase c).map (PE.eval p)),
      (C132_cells_exact hc _ _).2 ⟨_, rfl, .cons (.inr ⟨p, rfl, rfl⟩) .nil⟩, List.length_replicate, fun h => ?_⟩
    have := h.length_eq
    rw [List.length_replicate] at this
    have h1 : 1 ≠ (solidBase c).length := by cases c <;> decide
    exact h1 this

/-- **C132** arrays with any other number of axes are refused. -/
theorem C132_axes (c : Mono.Solid) (n : Nat) : Mono.call c (.other n : Mono.Arg K) = none := rfl

end

example : Mono.call .W6 (.points [(⟨2, 3, 5⟩ : V3 ℚ), ⟨1, 0, 0⟩]) = some (.table [[1, 2, 3, 5, 10, 15], [1, 1, 0, 0, 0, 0]]) ∧
    Mono.call .W6 (.cells [[(⟨2, 3, 5⟩ : V3 ℚ)]]) = some (.tables [List.replicate 6 [1, 2, 3, 5, 10, 15]]) ∧
    Mono.call .W6 (.cells [[(⟨2, 3, 5⟩ : V3 ℚ), ⟨1, 0, 0⟩]]) = none := by decide +kernel

end PM
