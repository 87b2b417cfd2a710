import Verif.PropsCloudMore

/-!
# C113: programs with frames that are made from arrays of the caller

`C113_frames_partial` is about frames made from lists or without an origin. Here arrays of the caller are allowed as well: what is shared, and where
all origins and all these arrays are after any program.
-/

namespace PM

/-- What has a place in space: a frame (by its number) or an array of the caller. -/
abbrev Thing := Nat ⊕ Nat

section
variable {A K : Type} [Field K]

/-- To whom the origin of a thing belongs: to the array of the caller the frame was made from, to the source of a shallow copy, otherwise to itself. -/
def owner : List (FOp A K) → Thing → Thing
  | [], x => x
  | op :: hist, x =>
    if x = .inl (madeIn hist) then match op with
      | .copy f => owner hist (.inl f)
      | .newArray _ h => .inr h
      | _ => x
    else owner hist x

/-- Where a thing is: everything with the same owner moves together. `init`: the arrays of the caller at the beginning. -/
def placeSpec (init : Nat → V3 K) : List (FOp A K) → Thing → V3 K
  | [], .inl _ => 0
  | [], .inr h => init h
  | .move f d :: hist, x => if owner hist (.inl f) = owner hist x then placeSpec init hist x + d else placeSpec init hist x
  | op :: hist, x =>
    if x = .inl (madeIn hist) then match op with
      | .newList _ v => v
      | .newArray _ h => placeSpec init hist (.inr h)
      | .copy f | .deepcopy f => placeSpec init hist (.inl f)
      | _ => 0
    else placeSpec init hist x

/-- The step only speaks about frames made before and about the `n0` arrays of the caller. -/
def FOp.Known (n0 n : Nat) : FOp A K → Prop
  | .new _ | .newList _ _ => True
  | .newArray _ h => h < n0
  | .origo f | .copy f | .deepcopy f | .move f _ => f < n

def KnownHist (n0 : Nat) : List (FOp A K) → Prop
  | [] => True
  | op :: hist => op.Known n0 (madeIn hist) ∧ KnownHist n0 hist

/-! ## proof -/

/-- Where the numbers of a thing are: in an array, or nowhere yet. -/
def FWorld.cell (n0 : Nat) (w : FWorld A K) : Thing → Option (Option Nat)
  | .inl g => (w.frames[g]?).map FObj.origo
  | .inr h => if h < n0 then some (some h) else none

structure SInv (n0 : Nat) (init : Nat → V3 K) (hist : List (FOp A K)) (w : FWorld A K) : Prop where
  len : w.frames.length = madeIn hist
  axes : ∀ (g : Nat) (o : FObj A), w.frames[g]? = some o → axesSpec hist g = some o.axes
  val : ∀ (x : Thing) (k : Nat), w.cell n0 x = some (some k) → w.arrays[k]? = some (placeSpec init hist x)
  zero : ∀ x : Thing, w.cell n0 x = some none → placeSpec init hist x = 0
  src : ∀ (x : Thing) (j : Nat), (w.cell n0 x).isSome → owner hist x = .inl j → j < madeIn hist
  share : ∀ (x y : Thing) (c c' : Option Nat), w.cell n0 x = some c → w.cell n0 y = some c' →
    (owner hist x = owner hist y ↔ x = y ∨ (c = c' ∧ c ≠ none))

variable {n0 : Nat} {init : Nat → V3 K} {hist : List (FOp A K)} {w : FWorld A K}

theorem SInv.lt (h : SInv n0 init hist w) {x : Thing} {k : Nat} (hx : w.cell n0 x = some (some k)) : k < w.arrays.length :=
  (List.getElem?_eq_some_iff.1 (h.val x k hx)).1

theorem SInv.isSome (h : SInv n0 init hist w) {g : Nat} (hg : g < madeIn hist) : ∃ o, w.frames[g]? = some o :=
  ⟨_, List.getElem?_eq_getElem (by rw [h.len]; exact hg)⟩

theorem SInv.cell_ne (h : SInv n0 init hist w) {x : Thing} (hx : (w.cell n0 x).isSome) : x ≠ .inl (madeIn hist) := by
  rintro rfl
  rw [FWorld.cell, List.getElem?_eq_none (by rw [h.len])] at hx
  cases hx

/-- Reading the origin keeps the invariant. -/
theorem SInv.origoArr (h : SInv n0 init hist w) {f : Nat} (hf : f < madeIn hist) :
    ∃ w' k o, w.origoArr f = some (w', k) ∧ SInv n0 init hist w' ∧ w.frames[f]? = some o ∧ w'.frames[f]? = some ⟨o.axes, some k⟩ := by
  obtain ⟨o, ho⟩ := h.isSome hf
  cases hk : o.origo with
  | some k =>
    refine ⟨w, k, o, ?_, h, ho, ?_⟩
    · unfold FWorld.origoArr; rw [ho]; simp only [hk]
    · rw [ho, ← hk]
  | none =>
    have hlt : f < w.frames.length := by rw [h.len]; exact hf
    refine ⟨⟨w.arrays ++ [0], w.frames.set f ⟨o.axes, some w.arrays.length⟩⟩, w.arrays.length, o, ?_, ?_, ho, ?_⟩
    · unfold FWorld.origoArr; rw [ho]; simp only [hk]
    · have hcf : w.cell n0 (.inl f) = some none := by rw [FWorld.cell, ho, Option.map_some, hk]
      set w' : FWorld A K := ⟨w.arrays ++ [0], w.frames.set f ⟨o.axes, some w.arrays.length⟩⟩ with hw'
      have cf : w'.cell n0 (.inl f) = some (some w.arrays.length) := by
        simp [FWorld.cell, hw', List.getElem?_set_self hlt]
      have cne : ∀ x, x ≠ .inl f → w'.cell n0 x = w.cell n0 x := by
        intro x hx
        cases x with
        | inl g =>
          have : g ≠ f := fun e => hx (by rw [e])
          simp [FWorld.cell, hw', List.getElem?_set_ne this.symm]
        | inr g => rfl
      have hs : ∀ x, (w'.cell n0 x).isSome → (w.cell n0 x).isSome := by
        intro x hx
        by_cases e : x = .inl f
        · rw [e, hcf]; rfl
        · rwa [cne x e] at hx
      refine ⟨by simp [hw', h.len], ?_, ?_, ?_, fun x j hx => h.src x j (hs x hx), ?_⟩
      · intro g o1 h1
        by_cases e : g = f
        · subst e
          rw [hw', List.getElem?_set_self hlt] at h1
          obtain rfl := Option.some.inj h1
          exact h.axes g o ho
        · rw [hw', List.getElem?_set_ne (fun e' => e e'.symm)] at h1
          exact h.axes g o1 h1
      · intro x k hx
        by_cases e : x = .inl f
        · subst e
          rw [cf, Option.some.injEq, Option.some.injEq] at hx
          subst hx
          rw [h.zero _ hcf]
          simp [hw']
        · rw [cne x e] at hx
          rw [hw', List.getElem?_append_left (h.lt hx), h.val x k hx]
      · intro x hx
        by_cases e : x = .inl f
        · rw [e, cf] at hx; simp at hx
        · rw [cne x e] at hx
          exact h.zero x hx
      · have one : ∀ (y : Thing) (c' : Option Nat), y ≠ .inl f → w'.cell n0 y = some c' →
            ¬ owner hist (.inl f) = owner hist y ∧ some w.arrays.length ≠ c' := by
          intro y c' e hy
          rw [cne y e] at hy
          refine ⟨fun e' => ?_, ?_⟩
          · rcases (h.share _ _ _ _ hcf hy).1 e' with e' | e'
            · exact e e'.symm
            · exact e'.2 rfl
          · rintro rfl
            exact absurd (h.lt hy) (lt_irrefl _)
        intro x y c c' hx hy
        by_cases e : x = .inl f <;> by_cases e' : y = .inl f
        · simp [e, e']
        · subst e
          rw [cf, Option.some.injEq] at hx
          subst hx
          obtain ⟨a, b⟩ := one y c' e' hy
          refine iff_of_false a ?_
          rintro (h' | h')
          · exact e' h'.symm
          · exact b h'.1
        · subst e'
          rw [cf, Option.some.injEq] at hy
          subst hy
          obtain ⟨a, b⟩ := one x c e hx
          refine iff_of_false (fun h' => a h'.symm) ?_
          rintro (h' | h')
          · exact e h'
          · exact b h'.1.symm
        · rw [cne x e] at hx
          rw [cne y e'] at hy
          exact h.share x y c c' hx hy
    · simp [List.getElem?_set_self hlt]

/-- A new frame, which is alone (`o = none` or a new array) or shares the place of `y`. -/
theorem SInv.make (h : SInv n0 init hist w) {op : FOp A K} (hm : op.makes = true) {a : A} {c : Option Nat} {arrays : List (V3 K)}
    (hax : axesSpec (op :: hist) (madeIn hist) = some a) (hpre : ∀ k < w.arrays.length, arrays[k]? = w.arrays[k]?)
    (hpl : ∀ x, x ≠ .inl (madeIn hist) → placeSpec init (op :: hist) x = placeSpec init hist x)
    (hv : ∀ k, c = some k → arrays[k]? = some (placeSpec init (op :: hist) (.inl (madeIn hist))))
    (hz : c = none → placeSpec init (op :: hist) (.inl (madeIn hist)) = 0)
    (hc : (owner (op :: hist) (.inl (madeIn hist)) = .inl (madeIn hist) ∧ ∀ k, c = some k → w.arrays.length ≤ k) ∨
      ∃ y, (w.cell n0 y) = some c ∧ c ≠ none ∧ owner (op :: hist) (.inl (madeIn hist)) = owner hist y) :
    SInv n0 init (op :: hist) ⟨arrays, w.frames ++ [⟨a, c⟩]⟩ := by
  have hl : madeIn (op :: hist) = madeIn hist + 1 := by simp [madeIn, hm]
  set w' : FWorld A K := ⟨arrays, w.frames ++ [⟨a, c⟩]⟩ with hw'
  have cn : w'.cell n0 (.inl (madeIn hist)) = some c := by simp [FWorld.cell, hw', ← h.len]
  have co : ∀ x, x ≠ .inl (madeIn hist) → w'.cell n0 x = w.cell n0 x := by
    intro x hx
    cases x with
    | inl g =>
      have hg : g ≠ w.frames.length := fun e => hx (by rw [e, h.len])
      simp only [FWorld.cell, hw']
      rcases lt_or_gt_of_ne hg with hg | hg
      · rw [List.getElem?_append_left hg]
      · rw [List.getElem?_eq_none (by simp; omega), List.getElem?_eq_none (by omega)]
    | inr g => rfl
  have ow : ∀ x, x ≠ .inl (madeIn hist) → owner (op :: hist) x = owner hist x := by
    intro x hx
    simp only [owner]
    rw [if_neg hx]
  refine ⟨by simp [hw', h.len, hl], ?_, ?_, ?_, ?_, ?_⟩
  · intro g o ho
    by_cases e : g = madeIn hist
    · subst e
      rw [hw', ← h.len, List.getElem?_append_right le_rfl, Nat.sub_self] at ho
      obtain rfl := Option.some.inj ho
      exact hax
    · have hg : g < w.frames.length := by
        have := (List.getElem?_eq_some_iff.1 ho).1
        simp only [hw', List.length_append, List.length_singleton, h.len] at this
        rw [h.len]; omega
      rw [hw', List.getElem?_append_left hg] at ho
      simp only [axesSpec]
      rw [if_neg e]
      exact h.axes g o ho
  · intro x k hx
    by_cases e : x = .inl (madeIn hist)
    · rw [e, cn, Option.some.injEq] at hx
      rw [e]
      exact hv k hx
    · rw [co x e] at hx
      rw [hpl x e, ← h.val x k hx]
      exact hpre k (h.lt hx)
  · intro x hx
    by_cases e : x = .inl (madeIn hist)
    · rw [e, cn, Option.some.injEq] at hx
      rw [e]
      exact hz hx
    · rw [co x e] at hx
      rw [hpl x e]
      exact h.zero x hx
  · intro x j hx hj
    rw [hl]
    by_cases e : x = .inl (madeIn hist)
    · rw [e] at hj
      rcases hc with ⟨h1, -⟩ | ⟨y, h1, -, h2⟩
      · rw [h1, Sum.inl.injEq] at hj; omega
      · rw [h2] at hj
        have := h.src y j (by rw [h1]; rfl) hj
        omega
    · rw [co x e] at hx
      rw [ow x e] at hj
      have := h.src x j hx hj
      omega
  · have one : ∀ (y : Thing) (c' : Option Nat), y ≠ .inl (madeIn hist) → w'.cell n0 y = some c' →
        (owner (op :: hist) (.inl (madeIn hist)) = owner (op :: hist) y ↔ c = c' ∧ c ≠ none) := by
      intro y c' e hy
      rw [co y e] at hy
      rw [ow y e]
      rcases hc with ⟨h1, h2⟩ | ⟨z, h1, h2, h3⟩
      · rw [h1]
        refine iff_of_false (fun e' => ?_) ?_
        · have := h.src y _ (by rw [hy]; rfl) e'.symm
          omega
        · rintro ⟨rfl, h4⟩
          obtain ⟨k, rfl⟩ := Option.ne_none_iff_exists'.1 h4
          have := h2 k rfl
          have := h.lt hy
          omega
      · rw [h3, h.share z y c c' h1 hy]
        refine ⟨?_, Or.inr⟩
        rintro (rfl | h4)
        · rw [h1, Option.some.injEq] at hy
          exact ⟨hy, h2⟩
        · exact h4
    intro x y d d' hx hy
    by_cases e : x = .inl (madeIn hist) <;> by_cases e' : y = .inl (madeIn hist)
    · simp [e, e']
    · subst e
      rw [cn, Option.some.injEq] at hx
      subst hx
      rw [one y d' e' hy]
      simp [Ne.symm e']
    · subst e'
      rw [cn, Option.some.injEq] at hy
      subst hy
      rw [eq_comm, one x d e hx]
      simp only [e, false_or]
      constructor <;> rintro ⟨rfl, h'⟩ <;> exact ⟨rfl, h'⟩
    · rw [co x e] at hx
      rw [co y e'] at hy
      rw [ow x e, ow y e']
      exact h.share x y d d' hx hy

omit [Field K] in
/-- Steps that make nothing. -/
theorem madeIn_keep {op : FOp A K} (hm : op.makes = false) : madeIn (op :: hist) = madeIn hist := by simp [madeIn, hm]

theorem SInv.step (h : SInv n0 init hist w) {op : FOp A K} (hop : op.Known n0 (madeIn hist)) :
    ∃ w', w.step op = some w' ∧ SInv n0 init (op :: hist) w' := by
  cases op with
  | new a =>
    refine ⟨_, rfl, h.make rfl (by simp [axesSpec]) (fun k _ => rfl) (fun x hx => by simp [placeSpec, hx]) (fun k e => by cases e)
      (fun _ => by simp [placeSpec]) (Or.inl ⟨by simp [owner], fun k e => by cases e⟩)⟩
  | newList a v =>
    refine ⟨_, rfl, h.make rfl (by simp [axesSpec]) (fun k hk => List.getElem?_append_left hk) (fun x hx => by simp [placeSpec, hx]) ?_
      (fun e => by cases e) (Or.inl ⟨by simp [owner], ?_⟩)⟩
    · rintro k ⟨⟩
      simp [placeSpec]
    · rintro k ⟨⟩
      exact le_rfl
  | newArray a k =>
    have hk : k < n0 := hop
    have hc : w.cell n0 (.inr k) = some (some k) := if_pos hk
    refine ⟨_, if_pos (h.lt hc), h.make rfl (by simp [axesSpec]) (fun k _ => rfl) (fun x hx => by simp [placeSpec, hx]) ?_
      (fun e => by cases e) (Or.inr ⟨.inr k, hc, by simp, ?_⟩)⟩
    · rintro j ⟨⟩
      rw [h.val _ _ hc]
      simp [placeSpec]
    · have : ∀ hist : List (FOp A K), owner hist (.inr k) = .inr k := by
        intro hist
        induction hist with
        | nil => rfl
        | cons op hist ih => simp only [owner]; rw [if_neg (by simp), ih]
      rw [this]
      simp [owner]
  | origo f =>
    obtain ⟨w', k, o, h1, h2, h3, h4⟩ := h.origoArr hop
    refine ⟨w', by simp [FWorld.step, h1], ?_⟩
    have hl : madeIn (.origo f :: hist) = madeIn hist := madeIn_keep rfl
    have ne : ∀ {x}, (w'.cell n0 x).isSome → x ≠ .inl (madeIn hist) := fun hx => h2.cell_ne hx
    have pl : ∀ {x}, (w'.cell n0 x).isSome → placeSpec init (.origo f :: hist) x = placeSpec init hist x := fun hx => by
      simp [placeSpec, ne hx]
    have ow : ∀ {x}, (w'.cell n0 x).isSome → owner (.origo f :: hist) x = owner hist x := fun hx => by simp [owner, ne hx]
    refine ⟨by rw [hl, h2.len], ?_, ?_, ?_, ?_, ?_⟩
    · intro g o ho
      simp only [axesSpec]
      rw [if_neg]
      · exact h2.axes g o ho
      · have := (List.getElem?_eq_some_iff.1 ho).1
        rw [h2.len] at this
        omega
    · intro x k hx; rw [pl (by rw [hx]; rfl)]; exact h2.val x k hx
    · intro x hx; rw [pl (by rw [hx]; rfl)]; exact h2.zero x hx
    · intro x j hx; rw [ow hx, hl]; exact h2.src x j hx
    · intro x y c c' hx hy; rw [ow (by rw [hx]; rfl), ow (by rw [hy]; rfl)]; exact h2.share x y c c' hx hy
  | copy f =>
    obtain ⟨w', k, o, h1, h2, h3, h4⟩ := h.origoArr hop
    have hc : w'.cell n0 (.inl f) = some (some k) := by rw [FWorld.cell, h4]; rfl
    refine ⟨⟨w'.arrays, w'.frames ++ [⟨o.axes, some k⟩]⟩, by simp only [FWorld.step, h1, h3, Option.bind_some, Option.map_some],
      h2.make rfl ?_ (fun k _ => rfl)
      (fun x hx => by simp [placeSpec, hx]) ?_ (fun e => by cases e) (Or.inr ⟨.inl f, hc, by simp, by simp [owner]⟩)⟩
    · simp only [axesSpec, if_true]
      exact h2.axes f ⟨o.axes, some k⟩ h4
    · rintro j ⟨⟩
      rw [h2.val _ _ hc]
      simp [placeSpec]
  | deepcopy f =>
    obtain ⟨w', k, o, h1, h2, h3, h4⟩ := h.origoArr hop
    have hc : w'.cell n0 (.inl f) = some (some k) := by rw [FWorld.cell, h4]; rfl
    have hv := h2.val _ _ hc
    refine ⟨⟨w'.arrays ++ [placeSpec init hist (.inl f)], w'.frames ++ [⟨o.axes, some w'.arrays.length⟩]⟩, by
      simp only [FWorld.step, h1, h3, Option.bind_some, hv, Option.map_some], h2.make rfl ?_ (fun k hk => List.getElem?_append_left hk)
      (fun x hx => by simp [placeSpec, hx]) ?_ (fun e => by cases e) (Or.inl ⟨by simp [owner], ?_⟩)⟩
    · simp only [axesSpec, if_true]
      exact h2.axes f ⟨o.axes, some k⟩ h4
    · rintro j ⟨⟩
      simp [placeSpec]
    · rintro j ⟨⟩
      exact le_rfl
  | move f d =>
    obtain ⟨w', k, o, h1, h2, h3, h4⟩ := h.origoArr hop
    have hc : w'.cell n0 (.inl f) = some (some k) := by rw [FWorld.cell, h4]; rfl
    have hv := h2.val _ _ hc
    refine ⟨⟨w'.arrays.set k (placeSpec init hist (.inl f) + d), w'.frames⟩, by
      simp only [FWorld.step, h1, Option.bind_some, hv, Option.map_some], ?_⟩
    have hl : madeIn (.move f d :: hist) = madeIn hist := madeIn_keep rfl
    have ne : ∀ {x}, (w'.cell n0 x).isSome → x ≠ .inl (madeIn hist) := fun hx => h2.cell_ne hx
    have ow : ∀ {x}, (w'.cell n0 x).isSome → owner (.move f d :: hist) x = owner hist x := fun hx => by simp [owner, ne hx]
    have cl : ∀ x, (FWorld.mk (w'.arrays.set k (placeSpec init hist (.inl f) + d)) w'.frames).cell n0 x = w'.cell n0 x := by
      intro x; cases x <;> rfl
    refine ⟨by rw [hl, ← h2.len], ?_, ?_, ?_, ?_, ?_⟩
    · intro g o ho
      simp only [axesSpec]
      rw [if_neg]
      · exact h2.axes g o ho
      · have := (List.getElem?_eq_some_iff.1 ho).1
        rw [h2.len] at this
        omega
    · intro x j hx
      rw [cl] at hx
      have sh := h2.share (.inl f) x _ _ hc hx
      simp only [placeSpec]
      by_cases e : k = j
      · subst e
        have e' : owner hist (.inl f) = owner hist x := sh.2 (Or.inr ⟨rfl, by simp⟩)
        rw [if_pos e', List.getElem?_set_self (h2.lt hx)]
        have := h2.val x k hx
        rw [hv, Option.some.injEq] at this
        rw [this]
      · have e' : ¬ owner hist (.inl f) = owner hist x := by
          rw [sh]
          rintro (rfl | ⟨h5, -⟩)
          · rw [hc, Option.some.injEq, Option.some.injEq] at hx
            exact e hx
          · exact e (Option.some.inj h5)
        rw [if_neg e', List.getElem?_set_ne e]
        exact h2.val x j hx
    · intro x hx
      rw [cl] at hx
      have sh := h2.share (.inl f) x _ _ hc hx
      have e' : ¬ owner hist (.inl f) = owner hist x := by
        rw [sh]
        rintro (rfl | ⟨h5, -⟩)
        · rw [hc] at hx; simp at hx
        · cases h5
      simp only [placeSpec]
      rw [if_neg e']
      exact h2.zero x hx
    · intro x j hx
      rw [cl] at hx
      rw [ow hx, hl]
      exact h2.src x j hx
    · intro x y c c' hx hy
      rw [cl] at hx hy
      rw [ow (by rw [hx]; rfl), ow (by rw [hy]; rfl)]
      exact h2.share x y c c' hx hy

/-- **C113** (any program with frames, lists, arrays of the caller and copies): every frame keeps its axes, and all origins and all arrays of the
caller are where `placeSpec` says: a frame made from an array moves together with the array, with the other frames made from it and with their
shallow copies; all other frames move with their shallow copies only. -/
theorem C113_frames_exact (w0 : FWorld A K) (h0 : w0.frames = []) {hist : List (FOp A K)} (hh : KnownHist w0.arrays.length hist) :
    ∃ w, w0.run hist.reverse = some w ∧ w.frames.length = madeIn hist ∧
      (∀ (g : Nat) (o : FObj A), w.frames[g]? = some o →
        w.originOf g = some (placeSpec (fun h => w0.arrays.getD h 0) hist (.inl g)) ∧ axesSpec hist g = some o.axes) ∧
      ∀ h < w0.arrays.length, w.arrays[h]? = some (placeSpec (fun h => w0.arrays.getD h 0) hist (.inr h)) := by
  have key : ∀ hist : List (FOp A K), KnownHist w0.arrays.length hist →
      ∃ w, w0.run hist.reverse = some w ∧ SInv w0.arrays.length (fun h => w0.arrays.getD h 0) hist w := by
    intro hist
    induction hist with
    | nil =>
      intro _
      have hc : ∀ g, w0.cell w0.arrays.length (.inl g) = none := by intro g; simp [FWorld.cell, h0]
      refine ⟨w0, rfl, by simp [h0, madeIn], ?_, ?_, ?_, ?_, ?_⟩
      · intro g o h; simp [h0] at h
      · intro x k hx
        cases x with
        | inl g => rw [hc] at hx; cases hx
        | inr h =>
          simp only [FWorld.cell] at hx
          split at hx
          · rename_i hlt
            obtain rfl := Option.some.inj (Option.some.inj hx)
            simp [placeSpec, hlt]
          · cases hx
      · intro x hx
        cases x with
        | inl g => rw [hc] at hx; cases hx
        | inr h => simp only [FWorld.cell] at hx; split at hx <;> simp at hx
      · intro x j hx hj
        cases x with
        | inl g => rw [hc] at hx; cases hx
        | inr h => simp [owner] at hj
      · intro x y c c' hx hy
        cases x with
        | inl g => rw [hc] at hx; cases hx
        | inr h =>
          cases y with
          | inl g => rw [hc] at hy; cases hy
          | inr h' =>
            simp only [FWorld.cell] at hx hy
            split at hx <;> split at hy <;> simp_all [owner]
            subst hx hy
            simp
    | cons op hist ih =>
      intro hh
      obtain ⟨w, h1, h2⟩ := ih hh.2
      obtain ⟨w', h3, h4⟩ := h2.step hh.1
      refine ⟨w', ?_, h4⟩
      unfold FWorld.run at h1 ⊢
      rw [List.reverse_cons, List.foldlM_append, h1]
      simp [h3]
  obtain ⟨w, h1, h2⟩ := key hist hh
  refine ⟨w, h1, h2.len, fun g o hg => ⟨originOf_of hg (fun k hk => ?_) (fun hk => ?_), h2.axes g o hg⟩, fun h hlt => h2.val _ _ (if_pos hlt)⟩
  · exact h2.val _ _ (by rw [FWorld.cell, hg, Option.map_some, hk])
  · exact h2.zero _ (by rw [FWorld.cell, hg, Option.map_some, hk])

end

/-- A case: two frames made from one array, a deep copy of the first one; then the second one is moved. -/
example : let hist : List (FOp Unit ℚ) := [.move 1 ⟨1, 0, 0⟩, .deepcopy 0, .newArray () 0, .newArray () 0]
    KnownHist 1 hist ∧ placeSpec (fun _ => ⟨5, 0, 0⟩) hist (.inl 0) = ⟨6, 0, 0⟩ ∧ placeSpec (fun _ => ⟨5, 0, 0⟩) hist (.inl 2) = ⟨5, 0, 0⟩ ∧
      placeSpec (fun _ => ⟨5, 0, 0⟩) hist (.inr 0) = ⟨6, 0, 0⟩ := by
  refine ⟨⟨show 1 < 3 by decide, show 0 < 2 by decide, show 0 < 1 by decide, show 0 < 1 by decide, trivial⟩, ?_, ?_, ?_⟩ <;> decide +kernel

end PM
