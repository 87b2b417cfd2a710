import Verif.PropsLock
import Mathlib.Data.List.Induction

/-!
# C109: what blocks_of_cells answers after any history

The mappers are those of the first `lock(create_mappers=True)` after the last `unlock()`, and the answers are about the numbers the cells had then.
-/

namespace PM

/-- Every question about cells of `bl` is answered with blocks of `bl`, and no other question is answered. -/
def LooksUpIn (bl : List IdBlock) (s : LMesh) : Prop :=
  (∀ cids, bl ≠ [] → (∀ c ∈ cids, ∃ b ∈ bl, c ∈ b.ids) → ∃ r, lookup s cids = some r ∧ Names bl cids r) ∧
  (∀ cids c, c ∈ cids → (∀ b ∈ bl, c ∉ b.ids) → lookup s cids = none) ∧
  (bl ≠ [] → ∃ (cids : List Int) (r : List (Int × List Nat)), lookupAll s = some r ∧ cids.Nodup ∧
    (∀ c, c ∈ cids ↔ ∃ b ∈ bl, c ∈ b.ids) ∧ Names bl cids r)

theorem looksUpIn (s : LMesh) : LooksUpIn (s.maps.getD s.tree.blocks) s :=
  looksUp_of (s := { tree := { s.tree with blocks := s.maps.getD s.tree.blocks }, locked := s.locked, maps := none }) rfl

/-- The history ends without mappers: whenever the mesh was locked with mappers, it has been unlocked since or had no cells. -/
def Unmapped (ops : List LockOp) : Prop :=
  ∀ pre post, ops = pre ++ .lock true :: post → .unlock ∈ post ∨ (runLock pre).tree.blocks = []

/-- The history ends with mappers for the blocks `bl`: at some time without mappers the mesh was locked with mappers, its blocks were `bl`, and it
has not been unlocked since. -/
def MappedAt (ops : List LockOp) (bl : List IdBlock) : Prop :=
  ∃ pre post, ops = pre ++ .lock true :: post ∧ .unlock ∉ post ∧ bl = (runLock pre).tree.blocks ∧ bl ≠ [] ∧ Unmapped pre

theorem runLock_snoc (ops : List LockOp) (op : LockOp) : runLock (ops ++ [op]) = (op.step (runLock ops)).getD (runLock ops) := by
  simp [runLock]

theorem mappedAt_snoc (ops : List LockOp) (op : LockOp) (bl : List IdBlock) :
    MappedAt (ops ++ [op]) bl ↔ (MappedAt ops bl ∧ op ≠ .unlock) ∨
      (op = .lock true ∧ bl = (runLock ops).tree.blocks ∧ bl ≠ [] ∧ Unmapped ops) := by
  constructor
  · rintro ⟨pre, post, e, h1, h2, h3, h4⟩
    rcases List.eq_nil_or_concat post with rfl | ⟨q, x, rfl⟩
    · obtain ⟨rfl, e'⟩ := List.append_inj' e rfl
      exact Or.inr ⟨List.singleton_inj.1 e', h2, h3, h4⟩
    · rw [List.concat_eq_append, ← List.cons_append, ← List.append_assoc] at e
      obtain ⟨rfl, e'⟩ := List.append_inj' e rfl
      obtain rfl := List.singleton_inj.1 e'
      rw [List.concat_eq_append, List.mem_append, not_or, List.mem_singleton] at h1
      exact Or.inl ⟨⟨pre, q, rfl, h1.1, h2, h3, h4⟩, fun e => h1.2 e.symm⟩
  · rintro (⟨⟨pre, post, rfl, h1, h2, h3, h4⟩, h5⟩ | ⟨rfl, h2, h3, h4⟩)
    · exact ⟨pre, post ++ [op], by simp, by simpa [h1] using fun e => h5 e.symm, h2, h3, h4⟩
    · exact ⟨ops, [], rfl, by simp, h2, h3, h4⟩

theorem unmapped_snoc (ops : List LockOp) (op : LockOp) :
    Unmapped (ops ++ [op]) ↔ op = .unlock ∨ (Unmapped ops ∧ (op = .lock true → (runLock ops).tree.blocks = [])) := by
  constructor
  · intro h
    by_cases ho : op = .unlock
    · exact Or.inl ho
    · refine Or.inr ⟨fun pre post e => ?_, fun e => ?_⟩
      · rcases h pre (post ++ [op]) (by rw [e]; simp) with h | h
        · rcases List.mem_append.1 h with h | h
          · exact Or.inl h
          · exact absurd (List.mem_singleton.1 h).symm ho
        · exact Or.inr h
      · rcases h ops [] (by rw [e]) with h | h
        · simp at h
        · exact h
  · intro h pre post e
    rcases List.eq_nil_or_concat post with rfl | ⟨q, x, rfl⟩
    · obtain ⟨rfl, e'⟩ := List.append_inj' e rfl
      obtain rfl := List.singleton_inj.1 e'
      rcases h with h | h
      · cases h
      · exact Or.inr (h.2 rfl)
    · rw [List.concat_eq_append, ← List.cons_append, ← List.append_assoc] at e
      obtain ⟨rfl, e'⟩ := List.append_inj' e rfl
      obtain rfl := List.singleton_inj.1 e'
      rw [List.concat_eq_append]
      rcases h with rfl | h
      · exact Or.inl (by simp)
      · rcases h.1 pre q rfl with h | h
        · exact Or.inl (List.mem_append_left _ h)
        · exact Or.inr h

theorem maps_iff (ops : List LockOp) : (∀ bl, (runLock ops).maps = some bl ↔ MappedAt ops bl) ∧ ((runLock ops).maps = none ↔ Unmapped ops) := by
  induction ops using List.reverseRecOn with
  | nil =>
    refine ⟨fun bl => ⟨fun h => absurd h (by simp [runLock]), ?_⟩, fun _ pre post h => by simp at h, fun _ => rfl⟩
    rintro ⟨pre, post, h, -⟩
    simp at h
  | append_singleton ops op ih =>
    obtain ⟨ih1, ih2⟩ := ih
    have same : (runLock (ops ++ [op])).maps = (runLock ops).maps → op ≠ .unlock →
        (op = .lock true → ¬ Unmapped ops ∨ (runLock ops).tree.blocks = []) →
        (∀ bl, (runLock (ops ++ [op])).maps = some bl ↔ MappedAt (ops ++ [op]) bl) ∧
          ((runLock (ops ++ [op])).maps = none ↔ Unmapped (ops ++ [op])) := by
      intro e ho hl
      refine ⟨fun bl => ?_, ?_⟩
      · rw [e, ih1, mappedAt_snoc]
        refine ⟨fun h => Or.inl ⟨h, ho⟩, ?_⟩
        rintro (h | ⟨h1, h2, h3, h4⟩)
        · exact h.1
        · rcases hl h1 with h | h
          · exact absurd h4 h
          · exact absurd (h2.trans h) h3
      · rw [e, ih2, unmapped_snoc]
        refine ⟨fun h => Or.inr ⟨h, fun e' => ?_⟩, ?_⟩
        · exact (hl e').resolve_left fun h' => h' h
        · rintro (h | h)
          · exact absurd h ho
          · exact h.1
    rw [runLock_snoc] at same ⊢
    cases op with
    | edit op =>
      refine same ?_ (by simp) (by simp)
      rw [LockOp.step]
      split <;> rfl
    | unlock =>
      simp only [LockOp.step, Option.getD_some]
      refine ⟨fun bl => ?_, fun _ => (unmapped_snoc _ _).2 (Or.inl rfl), fun _ => trivial⟩
      rw [mappedAt_snoc]
      simp
    | standard w =>
      refine same ?_ (by simp) (by simp)
      rw [LockOp.step]
      split <;> rfl
    | lock b =>
      cases b with
      | false => exact same rfl (by simp) (by simp)
      | true =>
        cases hm : (runLock ops).maps with
        | some bl0 =>
          refine same (by simp [LockOp.step, hm]) (by simp) fun _ => Or.inl fun h => ?_
          rw [ih2.2 h] at hm
          cases hm
        | none =>
          by_cases he : (runLock ops).tree.blocks = []
          · exact same (by simp [LockOp.step, hm, he]) (by simp) fun _ => Or.inr he
          · have hu := ih2.1 hm
            simp only [LockOp.step, hm, List.isEmpty_iff, he, if_false, Option.getD_some]
            refine ⟨fun bl => ?_, ?_⟩
            · rw [mappedAt_snoc, ← ih1, hm]
              constructor
              · intro e
                obtain rfl := Option.some.inj e
                exact Or.inr ⟨rfl, rfl, he, hu⟩
              · rintro (h | h)
                · simp at h
                · rw [h.2.1]
            · rw [unmapped_snoc]
              simp [he]

/-- **C109** (any history): with mappers, `blocks_of_cells` answers for the blocks and numbers at the time when they were made; otherwise for those of
now. -/
theorem C109_lookup_exact (ops : List LockOp) :
    (∀ bl, MappedAt ops bl → LooksUpIn bl (runLock ops)) ∧
    ((∀ bl, ¬ MappedAt ops bl) → LooksUpIn (runLock ops).tree.blocks (runLock ops)) := by
  have h := looksUpIn (runLock ops)
  constructor
  · intro bl hbl
    rw [((maps_iff ops).1 bl).2 hbl] at h
    exact h
  · intro hno
    cases hm : (runLock ops).maps with
    | none => rw [hm] at h; exact h
    | some bl => exact absurd (((maps_iff ops).1 bl).1 hm) (hno bl)

/-- **C109** there are no two sets of mappers, and none exactly if the mesh was unlocked since or had no cells. -/
theorem C109_mapped_unique (ops : List LockOp) :
    (∀ bl bl', MappedAt ops bl → MappedAt ops bl' → bl = bl') ∧ ((∃ bl, MappedAt ops bl) ↔ ¬ Unmapped ops) := by
  obtain ⟨h1, h2⟩ := maps_iff ops
  refine ⟨fun bl bl' h h' => Option.some.inj (((h1 bl).2 h).symm.trans ((h1 bl').2 h')), ?_⟩
  rw [← h2]
  constructor
  · rintro ⟨bl, h⟩ e
    rw [(h1 bl).2 h] at e
    cases e
  · intro h
    obtain ⟨bl, e⟩ := Option.ne_none_iff_exists'.1 h
    exact ⟨bl, (h1 bl).1 e⟩

/-- A case: the mesh of `C109_stale_false`, whose mappers have the numbers before it was brought to standard form. -/
example : MappedAt [.edit (.add [0] 1), .edit (.add [1] 1), .edit (.add [2] 1), .edit (.del [0]), .lock true, .standard [⟨[1], [1]⟩, ⟨[2], [2]⟩]]
    [⟨[1], [1]⟩, ⟨[2], [2]⟩] := by
  rw [← (maps_iff _).1]
  decide

end PM
