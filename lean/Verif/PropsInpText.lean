import Verif.InpText
import Verif.PropsStl

/-!
# C126: the text of .inp files
-/

namespace PM

/-! ## specification -/

/-- The same text, but for the case of letters. -/
def SameLetters (s t : Txt) : Prop := List.Forall₂ (fun c d => c.toUpper = d.toUpper) s t

/-- A line with its newline character. -/
def IsLine (l : Txt) : Prop := ∃ a, '\n' ∉ a ∧ l = a ++ ['\n']

/-- A comment. -/
def IsComment (l : Txt) : Prop := ∃ r, l = '*' :: '*' :: r

/-- A line with a keyword. -/
def IsKeyword (l : Txt) : Prop := ∃ d r, l = '*' :: d :: r ∧ d ≠ '*'

/-- A line with data. -/
def IsData (l : Txt) : Prop := ∃ c r, l = c :: r ∧ c ≠ '*'

/-- The line begins with the given words, in letters of any case. -/
def Begins (kw l : Txt) : Prop := ∃ a b, l = a ++ b ∧ SameLetters a kw

/-- The given words occur in the line, in letters of any case. -/
def Occurs (kw l : Txt) : Prop := ∃ a b c, l = a ++ b ++ c ∧ SameLetters b kw

/-- Blanks. -/
def Blanks (s : Txt) : Prop := ∀ c ∈ s, c = ' ' ∨ c = '\t' ∨ c = '\n' ∨ c = '\r'

/-- The decimal numeral of `n`, with blanks around it. -/
def Numeral (s : Txt) (n : Nat) : Prop := ∃ l r, Blanks l ∧ Blanks r ∧ s = l ++ Nat.toDigits 10 n ++ r

variable {K : Type}

/-- The line of a node: a label and three coordinates, separated by commas. -/
def NodeText (toFloat : Txt → Option K) (l : Txt) (p : V3 K) : Prop :=
  IsData l ∧ ∃ label x y z, ',' ∉ label ∧ ',' ∉ x ∧ ',' ∉ y ∧ ',' ∉ z ∧ l = label ++ ',' :: (x ++ ',' :: (y ++ ',' :: z)) ∧
    toFloat x = some p.x ∧ toFloat y = some p.y ∧ toFloat z = some p.z

/-- The line of a tetrahedron: a label and four numbers of nodes. -/
def TetText (l : Txt) (t : Nat × Nat × Nat × Nat) : Prop :=
  IsData l ∧ ∃ label a b c d, ',' ∉ label ∧ l = label ++ ',' :: (a ++ ',' :: (b ++ ',' :: (c ++ ',' :: d))) ∧
    Numeral a t.1 ∧ Numeral b t.2.1 ∧ Numeral c t.2.2.1 ∧ Numeral d t.2.2.2

/-- The set named at the end of the line of an element record, without the prefix `PT_`, in capitals. -/
inductive NamesSet : Txt → Option Txt → Prop
  | none (l : Txt) : ¬ Occurs "ELSET=".toList l → NamesSet l none
  | plain (kw mid e n : Txt) : SameLetters kw "*ELEMENT, TYPE=C3D4".toList → '=' ∉ mid → SameLetters e "ELSET=".toList →
      ¬ Occurs "PT_".toList n → NamesSet (kw ++ mid ++ e ++ n ++ ['\n']) (some (n.map Char.toUpper))
  | pt (kw mid e p n : Txt) : SameLetters kw "*ELEMENT, TYPE=C3D4".toList → '=' ∉ mid → SameLetters e "ELSET=".toList →
      SameLetters p "PT_".toList → ¬ Occurs "PT_".toList n → NamesSet (kw ++ mid ++ e ++ p ++ n ++ ['\n']) (some (n.map Char.toUpper))

/-- What a file consists of. -/
inductive InpBlock (K : Type)
  | part
  | nodes (ps : List (V3 K))
  | tets (name : Option Txt) (ts : List (Nat × Nat × Nat × Nat))
  | other

/-- What the lines (without comments) say. -/
inductive Says (toFloat : Txt → Option K) : List Txt → List (InpBlock K) → Prop
  | nil : Says toFloat [] []
  | part (l : Txt) (data rest : List Txt) (bs : List (InpBlock K)) : Begins "*PART".toList l → (∀ d ∈ data, IsData d) →
      Says toFloat rest bs → Says toFloat (l :: data ++ rest) (.part :: bs)
  | nodes (l : Txt) (data rest : List Txt) (ps : List (V3 K)) (bs : List (InpBlock K)) : Begins "*NODE".toList l →
      ¬ Begins "*NODE OUTPUT".toList l → List.Forall₂ (NodeText toFloat) data ps → Says toFloat rest bs →
      Says toFloat (l :: data ++ rest) (.nodes ps :: bs)
  | tets (l : Txt) (data rest : List Txt) (name : Option Txt) (ts : List (Nat × Nat × Nat × Nat)) (bs : List (InpBlock K)) :
      Begins "*ELEMENT, TYPE=C3D4".toList l → NamesSet l name → List.Forall₂ TetText data ts → Says toFloat rest bs →
      Says toFloat (l :: data ++ rest) (.tets name ts :: bs)
  | other (l : Txt) (data rest : List Txt) (bs : List (InpBlock K)) : IsKeyword l → ¬ Begins "*PART".toList l →
      ¬ Begins "*ELEMENT, TYPE=C3D4".toList l → (Begins "*NODE".toList l → Begins "*NODE OUTPUT".toList l) → (∀ d ∈ data, IsData d) →
      Says toFloat rest bs → Says toFloat (l :: data ++ rest) (.other :: bs)

/-- The nodes of the file. -/
def InpBlock.nodesOf : List (InpBlock K) → List (V3 K)
  | [] => []
  | .nodes ps :: bs => ps ++ nodesOf bs
  | _ :: bs => nodesOf bs

/-- The names of the sets. -/
def InpBlock.namesOf : List (InpBlock K) → List Txt
  | [] => []
  | .tets (some n) _ :: bs => n :: namesOf bs
  | _ :: bs => namesOf bs

/-- The triangles of the element records: nodes are counted from the beginning of the part; `n` nodes have come before, `off` before the
part. -/
def InpBlock.meshesOf (n off : Nat) : List (InpBlock K) → List (List Tri3)
  | [] => []
  | .part :: bs => meshesOf n n bs
  | .nodes ps :: bs => meshesOf (n + ps.length) off bs
  | .tets _ ts :: bs => (ts.flatMap fun t => inpTris off t.1 t.2.1 t.2.2.1 t.2.2.2) :: meshesOf n off bs
  | .other :: bs => meshesOf n off bs

/-! ## lines and fields -/

theorem pyLines_line (a s : Txt) (h : '\n' ∉ a) : pyLines (a ++ '\n' :: s) = (a ++ ['\n']) :: pyLines s := by
  induction a with
  | nil => simp [pyLines]
  | cons c a ih =>
    have hc : c ≠ '\n' := fun e => h (e ▸ List.mem_cons_self)
    have ha : '\n' ∉ a := fun e => h (List.mem_cons_of_mem _ e)
    simp only [List.cons_append, pyLines, if_neg hc, ih ha]

theorem pyLines_flatten (L : List Txt) (h : ∀ l ∈ L, IsLine l) : pyLines L.flatten = L := by
  induction L with
  | nil => rfl
  | cons l L ih =>
    obtain ⟨a, ha, rfl⟩ := h l List.mem_cons_self
    rw [List.flatten_cons, List.append_assoc, List.singleton_append, pyLines_line a _ ha, ih fun x hx => h x (List.mem_cons_of_mem _ hx)]

/-- **C126** (lines): nothing is lost or added, and lines end with the first newline. -/
theorem C126_lines (t : Txt) : (pyLines t).flatten = t ∧ (∀ l ∈ pyLines t, l ≠ [] ∧ '\n' ∉ l.dropLast) ∧
    (∀ l ∈ (pyLines t).dropLast, IsLine l) := by
  induction t with
  | nil => simp [pyLines]
  | cons c t ih =>
    obtain ⟨h1, h2, h3⟩ := ih
    by_cases hc : c = '\n'
    · subst hc
      simp only [pyLines, if_true]
      refine ⟨by simp [h1], ?_, ?_⟩
      · rintro l (_ | ⟨_, hl⟩)
        · simp
        · exact h2 l hl
      · intro l hl
        cases hp : pyLines t with
        | nil => rw [hp] at hl; simp at hl
        | cons a as =>
          rw [hp, List.dropLast_cons_cons] at hl
          rcases List.mem_cons.1 hl with rfl | hl
          · exact ⟨[], by simp, rfl⟩
          · exact h3 l (by rw [hp]; exact hl)
    · cases hp : pyLines t with
      | nil =>
        rw [hp] at h1
        simp only [pyLines, if_neg hc, hp]
        refine ⟨by simpa using h1, ?_, by simp⟩
        simp
      | cons a as =>
        rw [hp] at h1 h2 h3
        simp only [pyLines, if_neg hc, hp]
        refine ⟨by simpa using h1, ?_, ?_⟩
        · rintro l (_ | ⟨_, hl⟩)
          · obtain ⟨h4, h5⟩ := h2 a List.mem_cons_self
            refine ⟨by simp, ?_⟩
            obtain ⟨b, bs, rfl⟩ := List.exists_cons_of_ne_nil h4
            rw [List.dropLast_cons_cons, List.mem_cons, not_or]
            exact ⟨Ne.symm hc, h5⟩
          · exact h2 l (List.mem_cons_of_mem _ hl)
        · intro l hl
          cases as with
          | nil => simp at hl
          | cons b bs =>
            rw [List.dropLast_cons_cons] at hl
            rcases List.mem_cons.1 hl with rfl | hl
            · obtain ⟨x, hx, rfl⟩ := h3 a (by simp)
              exact ⟨c :: x, by simp [hx, Ne.symm hc], rfl⟩
            · exact h3 l (by rw [List.dropLast_cons_cons]; exact List.mem_cons_of_mem _ hl)

theorem splitComma_last (f : Txt) (h : ',' ∉ f) : splitComma f = [f] := by
  induction f with
  | nil => rfl
  | cons c f ih =>
    have hc : c ≠ ',' := fun e => h (e ▸ List.mem_cons_self)
    simp only [splitComma, if_neg hc, ih fun e => h (List.mem_cons_of_mem _ e)]

theorem splitComma_field (f s : Txt) (h : ',' ∉ f) : splitComma (f ++ ',' :: s) = f :: splitComma s := by
  induction f with
  | nil => simp [splitComma]
  | cons c f ih =>
    have hc : c ≠ ',' := fun e => h (e ▸ List.mem_cons_self)
    simp only [List.cons_append, splitComma, if_neg hc, ih fun e => h (List.mem_cons_of_mem _ e)]

/-- **C126** (fields): the fields are what stands between the commas. -/
theorem C126_fields (fs : List Txt) (hne : fs ≠ []) (h : ∀ f ∈ fs, ',' ∉ f) : splitComma ((fs.intersperse [',']).flatten) = fs := by
  induction fs with
  | nil => exact absurd rfl hne
  | cons f fs ih =>
    cases fs with
    | nil => simpa using splitComma_last f (h f List.mem_cons_self)
    | cons g fs =>
      have := ih (by simp) fun x hx => h x (List.mem_cons_of_mem _ hx)
      rw [List.intersperse_cons_cons, List.flatten_cons, List.flatten_cons, List.singleton_append, splitComma_field f _ (h f List.mem_cons_self),
        this]

/-! ## numbers -/

theorem digitVal_digit {c : Char} (h : c.isDigit = true) : digitVal c = some (c.toNat - '0'.toNat) := by
  have h' : '0' ≤ c ∧ c ≤ '9' := by
    simp only [Char.isDigit, Bool.and_eq_true, decide_eq_true_eq] at h
    exact ⟨h.1, h.2⟩
  simp [digitVal, h']

theorem readDigits_digits (s : Txt) (h : ∀ c ∈ s, c.isDigit = true) (acc : Nat) (u : Bool) (hu : u = true ∨ s ≠ []) :
    readDigits acc u s = some (Nat.ofDigitChars 10 s acc) := by
  induction s generalizing acc u with
  | nil =>
    rcases hu with rfl | hu
    · rfl
    · exact absurd rfl hu
  | cons c s ih =>
    have hd := h c List.mem_cons_self
    have hc : c ≠ '_' := by
      rintro rfl
      exact absurd hd (by decide)
    rw [readDigits, if_neg hc, digitVal_digit hd, Option.bind_some, ih (fun x hx => h x (List.mem_cons_of_mem _ hx)) _ _ (Or.inl rfl),
      Nat.ofDigitChars_cons]

theorem readDigits_toDigits (n : Nat) : readDigits 0 false (Nat.toDigits 10 n) = some n := by
  rw [readDigits_digits _ (fun c hc => Nat.isDigit_of_mem_toDigits (by decide) (by decide) hc) _ _ (Or.inr Nat.toDigits_ne_nil),
    Nat.ofDigitChars_ten_toDigits]

theorem blanks_isBlank {s : Txt} (h : Blanks s) : ∀ c ∈ s, isBlank c = true := by
  intro c hc
  rcases h c hc with rfl | rfl | rfl | rfl <;> decide

theorem pyStrip_mid {l m r : Txt} (hl : ∀ c ∈ l, isBlank c = true) (hr : ∀ c ∈ r, isBlank c = true) (hm : m ≠ [])
    (h : ∀ c ∈ m, isBlank c = false) : pyStrip (l ++ m ++ r) = m := by
  obtain ⟨a, as, rfl⟩ := List.exists_cons_of_ne_nil hm
  have h1 : (l ++ (a :: as) ++ r).dropWhile isBlank = (a :: as) ++ r := by
    rw [List.append_assoc, List.dropWhile_append_of_pos hl, List.cons_append, List.dropWhile_cons_of_neg]
    simp [h a List.mem_cons_self]
  have h2 : ((a :: as) ++ r).reverse.dropWhile isBlank = (a :: as).reverse := by
    rw [List.reverse_append, List.dropWhile_append_of_pos fun c hc => hr c (List.mem_reverse.1 hc)]
    cases hrev : (a :: as).reverse with
    | nil => simp at hrev
    | cons b bs =>
      have : b ∈ a :: as := by rw [← List.mem_reverse, hrev]; exact List.mem_cons_self
      rw [List.dropWhile_cons_of_neg]
      simp [h b this]
  rw [pyStrip, h1, h2, List.reverse_reverse]

theorem pyStrip_core {l m r : Txt} (hl : Blanks l) (hr : Blanks r) (hm : m ≠ []) (h : ∀ c ∈ m, isBlank c = false) :
    pyStrip (l ++ m ++ r) = m := pyStrip_mid (blanks_isBlank hl) (blanks_isBlank hr) hm h

theorem not_blank_of_digit {c : Char} (h : c.isDigit = true) : isBlank c = false := by
  by_contra hb
  simp only [isBlank, Bool.not_eq_false, Bool.or_eq_true, decide_eq_true_eq] at hb
  rcases hb with ((((rfl | rfl) | rfl) | rfl) | rfl) | rfl <;> exact absurd h (by decide)

theorem digits_isDigit {n : Nat} {c : Char} (hc : c ∈ Nat.toDigits 10 n) : c.isDigit = true :=
  Nat.isDigit_of_mem_toDigits (by decide) (by decide) hc

/-- **C126** (numbers): numerals with blanks around them, with or without a sign. -/
theorem C126_int (l r : Txt) (hl : Blanks l) (hr : Blanks r) (n : Nat) :
    readInt (l ++ Nat.toDigits 10 n ++ r) = some (n : Int) ∧ readInt (l ++ '+' :: Nat.toDigits 10 n ++ r) = some (n : Int) ∧
      readInt (l ++ '-' :: Nat.toDigits 10 n ++ r) = some (-(n : Int)) := by
  refine ⟨?_, ?_, ?_⟩
  · rw [readInt, pyStrip_core hl hr Nat.toDigits_ne_nil fun c hc => not_blank_of_digit (digits_isDigit hc)]
    split
    · rename_i r' hr'
      have : '-' ∈ Nat.toDigits 10 n := by rw [hr']; exact List.mem_cons_self
      exact absurd (digits_isDigit this) (by decide)
    · rename_i r' hr'
      have : '+' ∈ Nat.toDigits 10 n := by rw [hr']; exact List.mem_cons_self
      exact absurd (digits_isDigit this) (by decide)
    · rw [readDigits_toDigits]
      rfl
  · rw [readInt, pyStrip_core hl hr (List.cons_ne_nil _ _)]
    · simp [readDigits_toDigits]
    · rintro c (_ | ⟨_, hc⟩)
      · decide
      · exact not_blank_of_digit (digits_isDigit hc)
  · rw [readInt, pyStrip_core hl hr (List.cons_ne_nil _ _)]
    · simp [readDigits_toDigits]
    · rintro c (_ | ⟨_, hc⟩)
      · decide
      · exact not_blank_of_digit (digits_isDigit hc)

/-! ## texts of numbers -/

/-- Blank characters: codes 9 to 13 and 32. -/
def Spaces (s : Txt) : Prop := ∀ c ∈ s, c.toNat = 32 ∨ 9 ≤ c.toNat ∧ c.toNat ≤ 13

/-- One or more numerals. -/
def Digits (s : Txt) : Prop := s ≠ [] ∧ ∀ c ∈ s, c.isDigit = true

/-- The text of the number `z`: blanks, a sign or none, groups of numerals with an underscore between them, blanks. -/
def IntText (s : Txt) (z : Int) : Prop := ∃ (l r sign : Txt) (gs : List Txt), Spaces l ∧ Spaces r ∧ (sign = [] ∨ sign = ['+'] ∨ sign = ['-']) ∧
  gs ≠ [] ∧ (∀ g ∈ gs, Digits g) ∧ s = l ++ (sign ++ (gs.intersperse ['_']).flatten) ++ r ∧
  z = (if sign = ['-'] then -1 else 1) * (Nat.ofDigitChars 10 gs.flatten 0 : Int)

theorem isBlank_iff (c : Char) : isBlank c = true ↔ c.toNat = 32 ∨ 9 ≤ c.toNat ∧ c.toNat ≤ 13 := by
  simp only [isBlank, Bool.or_eq_true, decide_eq_true_eq, char_eq_iff]
  have e1 : ' '.toNat = 32 := rfl
  have e2 : '\t'.toNat = 9 := rfl
  have e3 : '\n'.toNat = 10 := rfl
  have e4 : '\r'.toNat = 13 := rfl
  have e5 : '\x0b'.toNat = 11 := rfl
  have e6 : '\x0c'.toNat = 12 := rfl
  rw [e1, e2, e3, e4, e5, e6]
  omega

theorem join_cons (g : Txt) (gs : List Txt) : ((g :: gs).intersperse ['_']).flatten = g ++ (gs.map fun h => '_' :: h).flatten := by
  induction gs generalizing g with
  | nil => simp
  | cons h gs ih =>
    rw [List.intersperse_cons_cons, List.flatten_cons, List.flatten_cons, ih]
    simp

theorem digitVal_some {c : Char} {d : Nat} (h : digitVal c = some d) : c.isDigit = true ∧ d = c.toNat - '0'.toNat := by
  unfold digitVal at h
  split at h
  · rename_i hc
    refine ⟨?_, (Option.some.inj h).symm⟩
    simp only [Char.isDigit, Bool.and_eq_true, decide_eq_true_eq]
    exact ⟨hc.1, hc.2⟩
  · exact absurd h (by simp)

theorem readDigits_inv (t : Txt) : ∀ acc n,
    (readDigits acc false t = some n → ∃ (g : Txt) (gs : List Txt), Digits g ∧ (∀ g ∈ gs, Digits g) ∧ t = g ++ (gs.map fun h => '_' :: h).flatten ∧
      n = Nat.ofDigitChars 10 (g ++ gs.flatten) acc) ∧
    (readDigits acc true t = some n → ∃ (d : Txt) (gs : List Txt), (∀ c ∈ d, c.isDigit = true) ∧ (∀ g ∈ gs, Digits g) ∧ t = d ++ (gs.map fun h => '_' :: h).flatten ∧
      n = Nat.ofDigitChars 10 (d ++ gs.flatten) acc) := by
  induction t with
  | nil =>
    intro acc n
    refine ⟨fun h => by simp [readDigits] at h, fun h => ⟨[], [], by simp, by simp, rfl, ?_⟩⟩
    simpa [readDigits] using h.symm
  | cons c t ih =>
    intro acc n
    by_cases hc : c = '_'
    · subst hc
      refine ⟨fun h => by simp [readDigits] at h, fun h => ?_⟩
      simp only [readDigits, if_true] at h
      obtain ⟨g, gs, h1, h2, h3, h4⟩ := (ih acc n).1 h
      refine ⟨[], g :: gs, by simp, ?_, by simp [h3], by simpa using h4⟩
      rintro x (_ | ⟨_, hx⟩)
      · exact h1
      · exact h2 x hx
    · have key : ∀ u, readDigits acc u (c :: t) = some n → ∃ (d : Txt) (gs : List Txt), c.isDigit = true ∧ (∀ c ∈ d, c.isDigit = true) ∧ (∀ g ∈ gs, Digits g) ∧
          t = d ++ (gs.map fun h => '_' :: h).flatten ∧ n = Nat.ofDigitChars 10 (c :: (d ++ gs.flatten)) acc := by
        intro u h
        rw [readDigits, if_neg hc] at h
        obtain ⟨v, hv, h⟩ := Option.bind_eq_some_iff.1 h
        obtain ⟨e1, e2⟩ := digitVal_some hv
        obtain ⟨d, gs, h1, h2, h3, h4⟩ := (ih _ n).2 h
        refine ⟨d, gs, e1, h1, h2, h3, ?_⟩
        rw [Nat.ofDigitChars_cons, ← e2, h4]
      constructor
      · intro h
        obtain ⟨d, gs, h0, h1, h2, h3, h4⟩ := key _ h
        refine ⟨c :: d, gs, ⟨by simp, ?_⟩, h2, by rw [h3]; rfl, h4⟩
        rintro x (_ | ⟨_, hx⟩)
        · exact h0
        · exact h1 x hx
      · intro h
        obtain ⟨d, gs, h0, h1, h2, h3, h4⟩ := key _ h
        refine ⟨c :: d, gs, ?_, h2, by rw [h3]; rfl, h4⟩
        rintro x (_ | ⟨_, hx⟩)
        · exact h0
        · exact h1 x hx

theorem readDigits_join (gs : List Txt) (hg : ∀ g ∈ gs, Digits g) : ∀ (d : Txt), (∀ c ∈ d, c.isDigit = true) → ∀ acc u, (u = true ∨ d ≠ []) →
    readDigits acc u (d ++ (gs.map fun h => '_' :: h).flatten) = some (Nat.ofDigitChars 10 (d ++ gs.flatten) acc) := by
  induction gs with
  | nil =>
    intro d hd acc u hu
    simpa using readDigits_digits d hd acc u hu
  | cons g gs ih =>
    intro d
    induction d with
    | nil =>
      intro _ acc u hu
      obtain rfl : u = true := by simpa using hu
      have hg0 := hg g List.mem_cons_self
      simp only [List.nil_append, List.map_cons, List.flatten_cons, List.cons_append]
      rw [readDigits, if_pos rfl, if_pos rfl]
      exact ih (fun x hx => hg x (List.mem_cons_of_mem _ hx)) g hg0.2 acc false (.inr hg0.1)
    | cons c d ihd =>
      intro hd acc u _
      have h0 := hd c List.mem_cons_self
      have hc : c ≠ '_' := by
        rintro rfl
        exact absurd h0 (by decide)
      rw [List.cons_append, readDigits, if_neg hc, digitVal_digit h0, Option.bind_some,
        ihd (fun x hx => hd x (List.mem_cons_of_mem _ hx)) _ _ (.inl rfl), List.cons_append, Nat.ofDigitChars_cons]

theorem takeWhile_all {p : Char → Bool} {s : Txt} {c : Char} (h : c ∈ s.takeWhile p) : p c = true := by
  induction s with
  | nil => simp at h
  | cons a s ih =>
    rw [List.takeWhile_cons] at h
    split at h
    · rename_i ha
      rcases List.mem_cons.1 h with rfl | h
      · exact ha
      · exact ih h
    · simp at h

theorem pyStrip_split (s : Txt) : ∃ l r, Spaces l ∧ Spaces r ∧ s = l ++ pyStrip s ++ r := by
  refine ⟨s.takeWhile isBlank, ((s.dropWhile isBlank).reverse.takeWhile isBlank).reverse, ?_, ?_, ?_⟩
  · intro c hc
    exact (isBlank_iff c).1 (takeWhile_all hc)
  · intro c hc
    exact (isBlank_iff c).1 (takeWhile_all (List.mem_reverse.1 hc))
  · rw [pyStrip, List.append_assoc, ← List.reverse_append, List.takeWhile_append_dropWhile, List.reverse_reverse, List.takeWhile_append_dropWhile]

/-- **C126** (numbers): a field is read as an integer exactly if it is the text of one. -/
theorem C126_int_iff (s : Txt) (z : Int) : readInt s = some z ↔ IntText s z := by
  constructor
  · intro h
    obtain ⟨l, r, hl, hr, hs⟩ := pyStrip_split s
    have key : ∀ sign t, (sign = [] ∨ sign = ['+'] ∨ sign = ['-']) → pyStrip s = sign ++ t →
        (readDigits 0 false t).map (fun (n : Nat) => (if sign = ['-'] then -1 else 1) * (n : Int)) = some z → IntText s z := by
      intro sign t hsign e ht
      obtain ⟨n, hn, rfl⟩ := Option.map_eq_some_iff.1 ht
      obtain ⟨g, gs, h1, h2, h3, h4⟩ := (readDigits_inv t 0 n).1 hn
      refine ⟨l, r, sign, g :: gs, hl, hr, hsign, by simp, ?_, ?_, by rw [List.flatten_cons, ← h4]⟩
      · rintro x (_ | ⟨_, hx⟩)
        · exact h1
        · exact h2 x hx
      · rw [join_cons, ← h3, ← e]
        exact hs
    unfold readInt at h
    split at h
    · rename_i t e
      exact key ['-'] t (by simp) e (by simpa [Option.map_eq_bind, Function.comp_def, Option.bind_assoc] using h)
    · rename_i t e
      exact key ['+'] t (by simp) e (by simpa [Option.map_eq_bind, Function.comp_def] using h)
    · exact key [] (pyStrip s) (by simp) rfl (by simpa [Option.map_eq_bind] using h)
  · rintro ⟨l, r, sign, gs, hl, hr, hsign, hne, hg, rfl, rfl⟩
    obtain ⟨g, gs, rfl⟩ := List.exists_cons_of_ne_nil hne
    have hg0 := hg g List.mem_cons_self
    have hgs : ∀ x ∈ gs, Digits x := fun x hx => hg x (List.mem_cons_of_mem _ hx)
    rw [join_cons]
    have hd := readDigits_join gs hgs g hg0.2 0 false (.inr hg0.1)
    have nb : ∀ c ∈ g ++ (gs.map fun h => '_' :: h).flatten, c.isDigit = true ∨ c = '_' := by
      intro c hc
      rcases List.mem_append.1 hc with hc | hc
      · exact .inl (hg0.2 c hc)
      · obtain ⟨x, hx, hc⟩ := List.mem_flatten.1 hc
        obtain ⟨y, hy, rfl⟩ := List.mem_map.1 hx
        rcases List.mem_cons.1 hc with rfl | hc
        · exact .inr rfl
        · exact .inl ((hgs y hy).2 c hc)
    have hstrip : pyStrip (l ++ (sign ++ (g ++ (gs.map fun h => '_' :: h).flatten)) ++ r) = sign ++ (g ++ (gs.map fun h => '_' :: h).flatten) := by
      apply pyStrip_mid
      · exact fun c hc => (isBlank_iff c).2 (hl c hc)
      · exact fun c hc => (isBlank_iff c).2 (hr c hc)
      · simp [hg0.1]
      · intro c hc
        rcases List.mem_append.1 hc with hc | hc
        · rcases hsign with rfl | rfl | rfl
          · simp at hc
          · rw [List.mem_singleton.1 hc]; decide
          · rw [List.mem_singleton.1 hc]; decide
        · rcases nb c hc with h | rfl
          · exact not_blank_of_digit h
          · decide
    rw [readInt, hstrip]
    rw [List.flatten_cons]
    rcases hsign with rfl | rfl | rfl
    · rw [List.nil_append]
      obtain ⟨c, g', rfl⟩ := List.exists_cons_of_ne_nil hg0.1
      have h0 := hg0.2 c List.mem_cons_self
      split
      · rename_i e
        rw [List.cons_append, List.cons.injEq] at e
        rw [e.1] at h0
        exact absurd h0 (by decide)
      · rename_i e
        rw [List.cons_append, List.cons.injEq] at e
        rw [e.1] at h0
        exact absurd h0 (by decide)
      · rw [hd]; simp
    · simp only [List.cons_append, List.nil_append]
      rw [hd]; simp
    · simp only [List.cons_append, List.nil_append]
      rw [hd]; simp

/-- A case: `-1_024` between blanks is a number, `1__0` and `1 0` are none. -/
example : IntText " -1_024\n".toList (-1024) ∧ (∀ z, ¬ IntText "1__0".toList z) ∧ ∀ z, ¬ IntText "1 0".toList z := by
  refine ⟨(C126_int_iff _ _).1 (by decide +kernel), fun z => ?_, fun z => ?_⟩
  · rw [← C126_int_iff, show readInt "1__0".toList = none by decide +kernel]; simp
  · rw [← C126_int_iff, show readInt "1 0".toList = none by decide +kernel]; simp

theorem readInt_numeral {s : Txt} {n : Nat} (h : Numeral s n) : readInt s = some (n : Int) := by
  obtain ⟨l, r, hl, hr, rfl⟩ := h
  exact (C126_int l r hl hr n).1

theorem comma_numeral {s : Txt} {n : Nat} (h : Numeral s n) : ',' ∉ s := by
  obtain ⟨l, r, hl, hr, rfl⟩ := h
  have hb : ∀ s, Blanks s → ',' ∉ s := fun s hs hc => by rcases hs _ hc with h | h | h | h <;> exact absurd h (by decide)
  simp only [List.mem_append, not_or]
  exact ⟨⟨hb l hl, fun hc => absurd (digits_isDigit hc) (by decide)⟩, hb r hr⟩

example : readInt " 1_000\n".toList = some 1000 ∧ readInt "-0".toList = some 0 ∧ readInt "1 0".toList = none ∧ readInt "".toList = none ∧
    readInt "1.0".toList = none ∧ readInt "_1".toList = none ∧ readInt "1__0".toList = none := by decide +kernel

/-! ## words -/

theorem sameLetters_iff (s t : Txt) : SameLetters s t ↔ pyUpper s = pyUpper t := by
  unfold SameLetters pyUpper
  induction s generalizing t with
  | nil => cases t <;> simp
  | cons c s ih => cases t <;> simp [ih]

theorem startsWith_iff (p s : Txt) : startsWith p s = true ↔ ∃ r, s = p ++ r := by
  rw [startsWith, beq_iff_eq]
  constructor
  · intro h
    exact ⟨s.drop p.length, by conv_lhs => rw [← List.take_append_drop p.length s, h]⟩
  · rintro ⟨r, rfl⟩
    simp

theorem pyUpper_append (a b : Txt) : pyUpper (a ++ b) = pyUpper a ++ pyUpper b := List.map_append

/-- The words are written in capitals. -/
theorem begins_iff (kw l : Txt) (hkw : pyUpper kw = kw) : Begins kw l ↔ startsWith kw (pyUpper l) = true := by
  rw [startsWith_iff]
  constructor
  · rintro ⟨a, b, rfl, h⟩
    rw [sameLetters_iff, hkw] at h
    exact ⟨pyUpper b, by rw [pyUpper_append, h]⟩
  · rintro ⟨r, h⟩
    refine ⟨l.take kw.length, l.drop kw.length, (List.take_append_drop _ _).symm, ?_⟩
    rw [sameLetters_iff, hkw, pyUpper, List.map_take]
    have : List.map Char.toUpper l = kw ++ r := h
    rw [this, List.take_left]

theorem upper_kwPart : pyUpper kwPart = kwPart := by decide +kernel
theorem upper_kwTet : pyUpper kwTet = kwTet := by decide +kernel
theorem upper_kwNode : pyUpper kwNode = kwNode := by decide +kernel
theorem upper_kwNodeOutput : pyUpper kwNodeOutput = kwNodeOutput := by decide +kernel
theorem upper_kwHeading : pyUpper kwHeading = kwHeading := by decide +kernel
theorem upper_kwElset : pyUpper kwElset = kwElset := by decide +kernel

/-- A text cannot begin with two words none of which is the beginning of the other. -/
theorem startsWith_clash {p q s : Txt} (h : startsWith p s = true) (hpq : p.isPrefixOf q = false) (hqp : q.isPrefixOf p = false) :
    startsWith q s = false := by
  by_contra hc
  rw [Bool.not_eq_false] at hc
  obtain ⟨a, ha⟩ := (startsWith_iff p s).1 h
  obtain ⟨b, hb⟩ := (startsWith_iff q s).1 hc
  rcases List.prefix_or_prefix_of_prefix ⟨a, ha.symm⟩ ⟨b, hb.symm⟩ with g | g
  · rw [← List.isPrefixOf_iff_prefix, hpq] at g
    cases g
  · rw [← List.isPrefixOf_iff_prefix, hqp] at g
    cases g

theorem toUpper_toNat (c : Char) : c.toUpper.toNat = if 97 ≤ c.toNat ∧ c.toNat ≤ 122 then c.toNat - 32 else c.toNat := by
  unfold Char.toUpper
  split
  · rename_i h
    have h97 : 97 ≤ c.toNat := h.1
    have h122 : c.toNat ≤ 122 := h.2
    rw [if_pos ⟨h97, h122⟩]
    show (c.val + ('A'.val - 'a'.val)).toNat = _
    rw [UInt32.toNat_add]
    show (c.toNat + 4294967264) % _ = _
    omega
  · rename_i h
    rw [if_neg fun g => h ⟨g.1, g.2⟩]

theorem star_of_upper {c : Char} (h : c.toUpper = '*') : c = '*' := by
  rw [char_eq_iff, toUpper_toNat] at h
  rw [char_eq_iff]
  have : '*'.toNat = 42 := rfl
  split at h <;> omega

theorem keyword_of_begins {kw l : Txt} (hkw : pyUpper kw = kw) (hk : IsKeyword kw) (h : Begins kw l) : IsKeyword l := by
  obtain ⟨a, b, rfl, h⟩ := h
  rw [sameLetters_iff, hkw] at h
  obtain ⟨d, x, hd, hdne⟩ := hk
  rw [hd] at h
  match a, h with
  | [_], h => simp [pyUpper] at h
  | c :: e :: a, h =>
    simp only [pyUpper, List.map_cons, List.cons.injEq] at h
    refine ⟨e, a ++ b, by rw [star_of_upper h.1]; rfl, ?_⟩
    rintro rfl
    exact hdne (by rw [← h.2.1]; decide)

theorem keyword_kwPart : IsKeyword kwPart := ⟨'P', "ART".toList, by decide +kernel, by decide⟩
theorem keyword_kwTet : IsKeyword kwTet := ⟨'E', "LEMENT, TYPE=C3D4".toList, by decide +kernel, by decide⟩
theorem keyword_kwNode : IsKeyword kwNode := ⟨'N', "ODE".toList, by decide +kernel, by decide⟩

/-! ## one line -/

section
variable (toFloat : Txt → Option K) (s : TextState K)

theorem step_comment {l : Txt} (h : IsComment l) : s.step toFloat l = some s := by
  obtain ⟨r, rfl⟩ := h
  simp [TextState.step]

theorem step_keyword {l : Txt} (h : IsKeyword l) : s.step toFloat l = some (s.keyword l) := by
  obtain ⟨d, r, rfl, hd⟩ := h
  simp [TextState.step, hd]

theorem step_data {l : Txt} (h : IsData l) : s.step toFloat l = s.data toFloat l := by
  obtain ⟨c, r, rfl, hc⟩ := h
  simp [TextState.step, hc]

end

theorem textRun_append (toFloat : Txt → Option K) (s : TextState K) (l l' : List Txt) :
    textRun toFloat s (l ++ l') = (textRun toFloat s l).bind fun s' => textRun toFloat s' l' := by
  induction l generalizing s with
  | nil => rfl
  | cons a l ih =>
    simp only [List.cons_append, textRun]
    cases s.step toFloat a with
    | none => rfl
    | some s' => exact ih s'

/-- A record whose data are passed over. -/
def Passed (record : Txt) : Prop :=
  startsWith kwTet record = false ∧ (startsWith kwNode record = true → startsWith kwNodeOutput record = true)

theorem run_passed (toFloat : Txt → Option K) (s : TextState K) (record : Txt) (hr : s.record = some record) (hp : Passed record)
    (data : List Txt) (hd : ∀ d ∈ data, IsData d) : textRun toFloat s data = some s := by
  induction data with
  | nil => rfl
  | cons d data ih =>
    have : s.data toFloat d = some s := by
      rw [TextState.data, hr, Option.bind_some]
      have hnode : (startsWith kwNode record && !startsWith kwNodeOutput record) = false := by
        cases h : startsWith kwNode record with
        | false => rfl
        | true => simp [hp.2 h]
      simp [hnode, hp.1]
    rw [textRun, step_data toFloat s (hd d List.mem_cons_self), this, Option.bind_some]
    exact ih fun x hx => hd x (List.mem_cons_of_mem _ hx)

theorem run_nodes (toFloat : Txt → Option K) (s : TextState K) (record : Txt) (hr : s.record = some record)
    (hn : startsWith kwNode record = true) (ho : startsWith kwNodeOutput record = false) (data : List Txt) (ps : List (V3 K))
    (hd : List.Forall₂ (NodeText toFloat) data ps) : textRun toFloat s data = some { s with verts := s.verts ++ ps } := by
  have hh : startsWith kwHeading record = false := startsWith_clash hn (by decide +kernel) (by decide +kernel)
  induction hd generalizing s with
  | nil => simp [textRun]
  | @cons d p data ps h _ ih =>
    obtain ⟨hdat, label, x, y, z, h1, h2, h3, h4, rfl, h5, h6, h7⟩ := h
    have e : s.data toFloat (label ++ ',' :: (x ++ ',' :: (y ++ ',' :: z))) = some { s with verts := s.verts ++ [p] } := by
      rw [TextState.data, hr, Option.bind_some]
      simp [hh, hn, ho, splitComma_field _ _ h1, splitComma_field _ _ h2, splitComma_field _ _ h3, splitComma_last _ h4, h5, h6, h7]
    rw [textRun, step_data toFloat s hdat, e, Option.bind_some, ih _ (by exact hr)]
    simp

theorem run_tets (toFloat : Txt → Option K) (s : TextState K) (record : Txt) (hr : s.record = some record)
    (ht : startsWith kwTet record = true) (pre : List (List Tri3)) (cur : List Tri3) (hs : s.tris = pre ++ [cur]) (data : List Txt)
    (ts : List (Nat × Nat × Nat × Nat)) (hd : List.Forall₂ TetText data ts) :
    textRun toFloat s data =
      some { s with tris := pre ++ [cur ++ ts.flatMap fun t => inpTris s.offset t.1 t.2.1 t.2.2.1 t.2.2.2] } := by
  have hh : startsWith kwHeading record = false := startsWith_clash ht (by decide +kernel) (by decide +kernel)
  have hn : startsWith kwNode record = false := startsWith_clash ht (by decide +kernel) (by decide +kernel)
  induction hd generalizing s cur with
  | nil => simp [textRun, ← hs]
  | @cons d t data ts h _ ih =>
    obtain ⟨hdat, label, a, b, c, e, h1, rfl, h2, h3, h4, h5⟩ := h
    have hstep : s.data toFloat (label ++ ',' :: (a ++ ',' :: (b ++ ',' :: (c ++ ',' :: e)))) =
        some { s with tris := pre ++ [cur ++ inpTris s.offset t.1 t.2.1 t.2.2.1 t.2.2.2] } := by
      rw [TextState.data, hr, Option.bind_some]
      simp [hh, hn, ht, splitComma_field _ _ h1, splitComma_field _ _ (comma_numeral h2), splitComma_field _ _ (comma_numeral h3),
        splitComma_field _ _ (comma_numeral h4), splitComma_last _ (comma_numeral h5), readInt_numeral h2, readInt_numeral h3, readInt_numeral h4,
        readInt_numeral h5, appendLast, hs]
    rw [textRun, step_data toFloat s hdat, hstep, Option.bind_some, ih _ (by exact hr) _ rfl]
    simp

/-! ## names of sets -/

theorem afterFirst_eq_none (p s : Txt) : afterFirst p s = none ↔ ¬ ∃ a b, s = a ++ p ++ b := by
  induction s with
  | nil =>
    simp only [afterFirst]
    split
    · rename_i h
      rw [startsWith_iff] at h
      obtain ⟨r, hr⟩ := h
      simp only [reduceCtorEq, false_iff, not_not]
      exact ⟨[], r, by simpa using hr⟩
    · rename_i h
      rw [startsWith_iff] at h
      simp only [true_iff]
      rintro ⟨a, b, e⟩
      have : a = [] ∧ p = [] ∧ b = [] := by simpa [and_assoc] using e.symm
      exact h ⟨[], by rw [this.2.1]; rfl⟩
  | cons c s ih =>
    simp only [afterFirst]
    split
    · rename_i h
      rw [startsWith_iff] at h
      obtain ⟨r, hr⟩ := h
      simp only [reduceCtorEq, false_iff, not_not]
      exact ⟨[], r, by simpa using hr⟩
    · rename_i h
      rw [startsWith_iff] at h
      rw [ih]
      refine not_congr ⟨?_, ?_⟩
      · rintro ⟨a, b, rfl⟩
        exact ⟨c :: a, b, rfl⟩
      · rintro ⟨a, b, e⟩
        cases a with
        | nil => exact absurd ⟨b, by simpa using e⟩ h
        | cons d a =>
          simp only [List.cons_append, List.cons.injEq] at e
          exact ⟨a, b, e.2⟩

theorem afterFirst_skip {p : Txt} {c : Char} {s : Txt} (h : startsWith p (c :: s) = false) : afterFirst p (c :: s) = afterFirst p s := by
  simp [afterFirst, h]

/-- The first `ELSET=` after a text without equality signs. -/
theorem afterFirst_elset (mid r : Txt) (h : '=' ∉ mid) : afterFirst kwElset (mid ++ kwElset ++ r) = some r := by
  induction mid with
  | nil =>
    have hs : startsWith kwElset (kwElset ++ r) = true := (startsWith_iff _ _).2 ⟨r, rfl⟩
    obtain ⟨c, s, hc⟩ : ∃ c s, kwElset ++ r = c :: s := ⟨'E', "LSET=".toList ++ r, by simp [kwElset]⟩
    rw [List.nil_append, hc, afterFirst, if_pos (hc ▸ hs), ← hc, List.drop_left]
  | cons c mid ih =>
    rw [List.cons_append, List.cons_append, afterFirst_skip]
    · exact ih fun e => h (List.mem_cons_of_mem _ e)
    · by_contra hc
      rw [Bool.not_eq_false, startsWith_iff] at hc
      obtain ⟨q, hq⟩ := hc
      have h5 := congrArg (fun x : Txt => x[5]?) hq
      have e1 : (kwElset ++ q)[5]? = some '=' := by simp [kwElset]
      simp only [e1] at h5
      rw [← List.cons_append, ← List.cons_append, List.append_assoc] at h5
      by_cases hl : 5 < (c :: mid).length
      · rw [List.getElem?_append_left hl] at h5
        exact h (List.mem_of_getElem? h5)
      · rw [List.getElem?_append_right (by omega)] at h5
        have hk : 5 - (c :: mid).length < 5 := by simp only [List.length_cons]; omega
        rw [List.getElem?_append_left (by simp [kwElset]; omega)] at h5
        have : ∀ k < 5, kwElset[k]? ≠ some '=' := by decide +kernel
        exact this _ hk h5

theorem startsWith_head {p : Txt} {a c : Char} {s : Txt} (h : c ≠ a) : startsWith (a :: p) (c :: s) = false := by
  by_contra hc
  rw [Bool.not_eq_false, startsWith_iff] at hc
  obtain ⟨r, hr⟩ := hc
  exact h (List.cons.inj hr).1

theorem startsWith_tail {p : Txt} {a : Char} {s : Txt} : startsWith (a :: p) (a :: s) = startsWith p s := by
  rw [Bool.eq_iff_iff, startsWith_iff, startsWith_iff]
  simp

theorem afterFirst_tet (s : Txt) : afterFirst kwElset (kwTet ++ s) = afterFirst kwElset s := by
  have e1 : kwElset = ['E', 'L', 'S', 'E', 'T', '='] := by decide +kernel
  have e2 : kwTet = ['*', 'E', 'L', 'E', 'M', 'E', 'N', 'T', ',', ' ', 'T', 'Y', 'P', 'E', '=', 'C', '3', 'D', '4'] := by decide +kernel
  rw [e1, e2]
  simp only [List.cons_append, List.nil_append]
  repeat' (rw [afterFirst_skip (by first
    | exact startsWith_head (by decide)
    | (rw [startsWith_tail]; exact startsWith_head (by decide))
    | (rw [startsWith_tail, startsWith_tail]; exact startsWith_head (by decide)))])

theorem removePT_id (n : Txt) (h : ¬ ∃ a b, n = a ++ "PT_".toList ++ b) : removePT n = n := by
  induction n with
  | nil => rfl
  | cons c n ih =>
    have h' : ¬ ∃ a b, n = a ++ "PT_".toList ++ b := by
      rintro ⟨a, b, rfl⟩
      exact h ⟨c :: a, b, rfl⟩
    rw [removePT, ih h']
    rintro s rfl rfl
    exact h ⟨[], s, rfl⟩

theorem occurs_iff (kw l : Txt) (hkw : pyUpper kw = kw) : Occurs kw l ↔ ∃ a b, pyUpper l = a ++ kw ++ b := by
  constructor
  · rintro ⟨a, b, c, rfl, h⟩
    rw [sameLetters_iff, hkw] at h
    exact ⟨pyUpper a, pyUpper c, by rw [pyUpper_append, pyUpper_append, h]⟩
  · rintro ⟨a, b, h⟩
    refine ⟨l.take a.length, (l.drop a.length).take kw.length, (l.drop a.length).drop kw.length, by simp, ?_⟩
    rw [sameLetters_iff, hkw, pyUpper, List.map_take, List.map_drop, show List.map Char.toUpper l = a ++ kw ++ b from h, List.append_assoc,
      List.drop_left, List.take_left]

theorem not_eq_upper {mid : Txt} (h : '=' ∉ mid) : '=' ∉ pyUpper mid := by
  intro hc
  obtain ⟨c, hc, he⟩ := List.mem_map.1 hc
  have : c = '=' := by
    rw [char_eq_iff, toUpper_toNat] at he
    rw [char_eq_iff]
    have : '='.toNat = 61 := rfl
    split at he <;> omega
  exact h (this ▸ hc)

theorem setName_of (l : Txt) (name : Option Txt) (h : NamesSet l name) : setName (pyUpper l) = name := by
  have hpt : pyUpper "PT_".toList = "PT_".toList := by decide +kernel
  have hnl : pyUpper ['\n'] = ['\n'] := by decide +kernel
  cases h with
  | none _ h =>
    rw [occurs_iff _ _ (show pyUpper "ELSET=".toList = _ from upper_kwElset)] at h
    rw [setName, (afterFirst_eq_none kwElset _).2 h]
    rfl
  | plain kw mid e n h1 h2 h3 h4 =>
    rw [sameLetters_iff] at h1 h3
    have h1 : pyUpper kw = kwTet := h1.trans upper_kwTet
    have h3 : pyUpper e = kwElset := h3.trans upper_kwElset
    rw [occurs_iff _ _ hpt] at h4
    rw [setName, pyUpper_append, pyUpper_append, pyUpper_append, pyUpper_append, h1, h3, hnl, List.append_assoc, List.append_assoc,
      List.append_assoc, afterFirst_tet, ← List.append_assoc, afterFirst_elset _ _ (not_eq_upper h2)]
    simp only [Option.map_some, List.dropLast_concat]
    rw [removePT_id _ h4]
    rfl
  | pt kw mid e p n h1 h2 h3 h5 h4 =>
    rw [sameLetters_iff] at h1 h3 h5
    have h1 : pyUpper kw = kwTet := h1.trans upper_kwTet
    have h3 : pyUpper e = kwElset := h3.trans upper_kwElset
    have h5 := h5.trans hpt
    rw [occurs_iff _ _ hpt] at h4
    rw [setName, pyUpper_append, pyUpper_append, pyUpper_append, pyUpper_append, pyUpper_append, h1, h3, h5, hnl, List.append_assoc,
      List.append_assoc, List.append_assoc, List.append_assoc, afterFirst_tet, ← List.append_assoc,
      afterFirst_elset _ _ (not_eq_upper h2)]
    simp only [Option.map_some, ← List.append_assoc, List.dropLast_concat]
    rw [show "PT_".toList ++ pyUpper n = 'P' :: 'T' :: '_' :: pyUpper n from rfl, removePT, removePT_id _ h4]
    rfl

/-! ## files -/

theorem run_says (toFloat : Txt → Option K) (L : List Txt) (bs : List (InpBlock K)) (h : Says toFloat L bs) (s : TextState K) :
    ∃ s', textRun toFloat s L = some s' ∧ s'.verts = s.verts ++ InpBlock.nodesOf bs ∧
      s'.tris = s.tris ++ InpBlock.meshesOf s.verts.length s.offset bs ∧ s'.mats = s.mats ++ InpBlock.namesOf bs := by
  induction h generalizing s with
  | nil => exact ⟨s, rfl, by simp [InpBlock.nodesOf], by simp [InpBlock.meshesOf], by simp [InpBlock.namesOf]⟩
  | part l data rest bs hb hd _ ih =>
    have hk := keyword_of_begins (kw := kwPart) upper_kwPart keyword_kwPart hb
    have hb : startsWith kwPart (pyUpper l) = true := (begins_iff kwPart l upper_kwPart).1 hb
    have hp : Passed (pyUpper l) := by
      refine ⟨startsWith_clash hb (by decide +kernel) (by decide +kernel), fun h => ?_⟩
      rw [startsWith_clash hb (by decide +kernel) (by decide +kernel)] at h
      cases h
    obtain ⟨s', h1, h2, h3, h4⟩ := ih (s.keyword l)
    have e : s.keyword l = { s with record := some (pyUpper l), offset := s.verts.length } := by simp [TextState.keyword, hb]
    refine ⟨s', ?_, ?_, ?_, ?_⟩
    · rw [List.cons_append, textRun, step_keyword toFloat s hk, Option.bind_some, textRun_append, run_passed toFloat _ (pyUpper l) (by rw [e]) hp data hd,
        Option.bind_some, h1]
    · rw [h2, e]; rfl
    · rw [h3, e]; rfl
    · rw [h4, e]; rfl
  | nodes l data rest ps bs hb ho hd _ ih =>
    have hk := keyword_of_begins (kw := kwNode) upper_kwNode keyword_kwNode hb
    have hb : startsWith kwNode (pyUpper l) = true := (begins_iff kwNode l upper_kwNode).1 hb
    have ho : startsWith kwNodeOutput (pyUpper l) = false := by
      rw [← Bool.not_eq_true]
      exact fun h => ho ((begins_iff kwNodeOutput l upper_kwNodeOutput).2 h)
    have e : s.keyword l = { s with record := some (pyUpper l) } := by
      have h1 : startsWith kwPart (pyUpper l) = false := startsWith_clash hb (by decide +kernel) (by decide +kernel)
      have h2 : startsWith kwTet (pyUpper l) = false := startsWith_clash hb (by decide +kernel) (by decide +kernel)
      simp [TextState.keyword, h1, h2]
    obtain ⟨s', h1, h2, h3, h4⟩ := ih { s.keyword l with verts := (s.keyword l).verts ++ ps }
    refine ⟨s', ?_, ?_, ?_, ?_⟩
    · rw [List.cons_append, textRun, step_keyword toFloat s hk, Option.bind_some, textRun_append, run_nodes toFloat _ (pyUpper l) (by rw [e]) hb ho data ps hd,
        Option.bind_some, h1]
    · rw [h2, e]; simp [InpBlock.nodesOf]
    · rw [h3, e]; simp [InpBlock.meshesOf]
    · rw [h4, e]; rfl
  | tets l data rest name ts bs hb hn hd _ ih =>
    have hk := keyword_of_begins (kw := kwTet) upper_kwTet keyword_kwTet hb
    have hb : startsWith kwTet (pyUpper l) = true := (begins_iff kwTet l upper_kwTet).1 hb
    have e : s.keyword l = { s with record := some (pyUpper l), tris := s.tris ++ [[]], mats := s.mats ++ name.toList } := by
      have h1 : startsWith kwPart (pyUpper l) = false := startsWith_clash hb (by decide +kernel) (by decide +kernel)
      simp [TextState.keyword, h1, hb, setName_of l name hn]
    have hrun := run_tets toFloat (s.keyword l) (pyUpper l) (by rw [e]) hb s.tris [] (by rw [e]) data ts hd
    obtain ⟨s', h1, h2, h3, h4⟩ := ih _
    refine ⟨s', ?_, ?_, ?_, ?_⟩
    · rw [List.cons_append, textRun, step_keyword toFloat s hk, Option.bind_some, textRun_append, hrun, Option.bind_some, h1]
    · rw [h2, e]; rfl
    · rw [h3, e]; simp [InpBlock.meshesOf]
    · rw [h4, e]
      cases name <;> simp [InpBlock.namesOf]
  | other l data rest bs hk hp ht hn hd _ ih =>
    have h1 : startsWith kwPart (pyUpper l) = false := by
      rw [← Bool.not_eq_true]
      exact fun h => hp ((begins_iff kwPart l upper_kwPart).2 h)
    have h2 : startsWith kwTet (pyUpper l) = false := by
      rw [← Bool.not_eq_true]
      exact fun h => ht ((begins_iff kwTet l upper_kwTet).2 h)
    have hpass : Passed (pyUpper l) := ⟨h2, fun h => (begins_iff kwNodeOutput l upper_kwNodeOutput).1 (hn ((begins_iff kwNode l upper_kwNode).2 h))⟩
    have e : s.keyword l = { s with record := some (pyUpper l) } := by simp [TextState.keyword, h1, h2]
    obtain ⟨s', h1, h2, h3, h4⟩ := ih (s.keyword l)
    refine ⟨s', ?_, ?_, ?_, ?_⟩
    · rw [List.cons_append, textRun, step_keyword toFloat s hk, Option.bind_some, textRun_append, run_passed toFloat _ (pyUpper l) (by rw [e]) hpass data hd,
        Option.bind_some, h1]
    · rw [h2, e]; rfl
    · rw [h3, e]; rfl
    · rw [h4, e]; rfl

open Classical in
theorem run_comments (toFloat : Txt → Option K) (L : List Txt) (s : TextState K) :
    textRun toFloat s L = textRun toFloat s (L.filter fun l => ¬ IsComment l) := by
  induction L generalizing s with
  | nil => rfl
  | cons l L ih =>
    by_cases h : IsComment l
    · rw [List.filter_cons_of_neg (by simpa using h), textRun, step_comment toFloat s h, Option.bind_some, ih]
    · rw [List.filter_cons_of_pos (by simpa using h), textRun, textRun]
      congr 1
      funext s'
      exact ih s'

/-- The name ends with `.inp`, in letters of any case. -/
def InpName (name : Txt) : Prop := ∃ pre e, name = pre ++ '.' :: e ∧ SameLetters e "inp".toList

theorem lower_upper (c d : Char) (hd : 97 ≤ d.toNat ∧ d.toNat ≤ 122) : c.toLower = d ↔ c.toUpper = d.toUpper := by
  rw [char_eq_iff, char_eq_iff, toLower_toNat, toUpper_toNat, toUpper_toNat, if_pos hd]
  (repeat' split) <;> omega

/-- **C126** (names of files): those that end with `.inp`, in letters of any case. -/
theorem C126_isInp (name : Txt) : isInp name = true ↔ InpName name := by
  have hdot : ∀ c : Char, c.toLower = '.' ↔ c = '.' := by
    intro c
    rw [char_eq_iff, char_eq_iff, toLower_toNat]
    have : '.'.toNat = 46 := rfl
    split <;> omega
  have key : ∀ a s t l : Char, [a, s, t, l].map Char.toLower = ".inp".toList ↔ a = '.' ∧ SameLetters [s, t, l] "inp".toList := by
    intro a s t l
    have e1 : ".inp".toList = ['.', 'i', 'n', 'p'] := by decide +kernel
    have e2 : "inp".toList = ['i', 'n', 'p'] := by decide +kernel
    rw [e1, e2]
    simp only [List.map_cons, List.map_nil, List.cons.injEq, and_true, SameLetters, List.forall₂_cons, List.Forall₂.nil]
    rw [hdot, lower_upper s 'i' (by decide), lower_upper t 'n' (by decide), lower_upper l 'p' (by decide)]
  rw [isInp, beq_iff_eq]
  constructor
  · intro h
    have hl : (name.drop (name.length - 4)).length = 4 := by
      have := congrArg List.length h
      rwa [List.length_map] at this
    match hd : name.drop (name.length - 4), hl with
    | [a, s, t, l], _ =>
      rw [hd, key] at h
      obtain ⟨rfl, h⟩ := h
      exact ⟨name.take (name.length - 4), [s, t, l], by rw [← hd, List.take_append_drop], h⟩
  · rintro ⟨pre, e, rfl, h⟩
    have hl : e.length = 3 := h.length_eq
    match e, hl with
    | [s, t, l], _ =>
      rw [show (pre ++ ['.', s, t, l]).length - 4 = pre.length by simp, List.drop_left]
      exact (key _ _ _ _).2 ⟨rfl, h⟩

open Classical in
/-- **C126** (files): whatever the comments and the case of the letters of the keywords, the nodes, the meshes and the names of the sets are
those of the file. -/
theorem C126_file_partial (toFloat : Txt → Option K) (name : Txt) (hname : InpName name) (L : List Txt) (hL : ∀ l ∈ L, IsLine l) (bs : List (InpBlock K))
    (h : Says toFloat (L.filter fun l => ¬ IsComment l) bs) :
    readInpText toFloat name L.flatten false = some (InpBlock.nodesOf bs, InpBlock.meshesOf 0 0 bs, InpBlock.namesOf bs) := by
  obtain ⟨s', h1, h2, h3, h4⟩ := run_says toFloat _ bs h {}
  rw [readInpText, if_pos ((C126_isInp name).2 hname), pyLines_flatten L hL, run_comments, h1]
  simp [h2, h3, h4]

/-- **C126** (names of files): other files are not read. -/
theorem C126_name (toFloat : Txt → Option K) (name text : Txt) (flip : Bool) (h : ¬ InpName name) : readInpText toFloat name text flip = none := by
  rw [readInpText, if_neg]
  rwa [C126_isInp]

/-- **C126** (flip): the option changes the order of the vertices of the triangles and nothing else. -/
theorem C126_flip (toFloat : Txt → Option K) (name text : Txt) :
    readInpText toFloat name text true = (readInpText toFloat name text false).map fun r => (r.1, r.2.1.map (List.map flipTri3), r.2.2) := by
  unfold readInpText
  split
  · cases textRun toFloat {} (pyLines text) <;> simp
  · rfl

/-- **C126** (case): the case of letters in lines with keywords does not matter. -/
theorem C126_case (toFloat : Txt → Option K) (name : Txt) (flip : Bool) (L L' : List Txt) (hL : ∀ l ∈ L, IsLine l) (hL' : ∀ l ∈ L', IsLine l)
    (h : List.Forall₂ (fun l l' => l = l' ∨ (IsKeyword l ∧ IsKeyword l' ∧ SameLetters l l')) L L') :
    readInpText toFloat name L.flatten flip = readInpText toFloat name L'.flatten flip := by
  have key : ∀ s : TextState K, textRun toFloat s L = textRun toFloat s L' := by
    clear hL hL'
    induction h with
    | nil => intro s; rfl
    | cons h _ ih =>
      intro s
      rw [textRun, textRun]
      rcases h with rfl | ⟨h1, h2, h3⟩
      · congr 1
        funext s'
        exact ih s'
      · rw [step_keyword toFloat s h1, step_keyword toFloat s h2, Option.bind_some, Option.bind_some]
        rw [sameLetters_iff] at h3
        rw [TextState.keyword, TextState.keyword, h3]
        exact ih _
  rw [readInpText, readInpText, pyLines_flatten L hL, pyLines_flatten L' hL', key]

/-! ## records: the link with C57 -/

/-- What a line is for the reader of records (`Inp`). -/
def recordOf (toFloat : Txt → Option K) (l : Txt) : InpLine K :=
  match l with
  | '*' :: '*' :: _ => .comment
  | '*' :: _ =>
    if startsWith kwPart (pyUpper l) then .part
    else if startsWith kwTet (pyUpper l) then .element
    else if startsWith kwNode (pyUpper l) && !startsWith kwNodeOutput (pyUpper l) then .node
    else .keyword
  | _ => .data ((splitComma l).map fun f => (readInt f, toFloat f))

/-- The kind of record. -/
def kindOf (r : Txt) : InpRec :=
  if startsWith kwNode r && !startsWith kwNodeOutput r then .node else if startsWith kwTet r then .tet else .other

/-- The same state. -/
def SameState (s : TextState K) (t : InpState K) : Prop :=
  s.verts = t.verts ∧ s.tris = t.tris ∧ s.record.map kindOf = t.kind ∧ s.offset = t.offset

theorem data_records (toFloat : Txt → Option K) (s : TextState K) (t : InpState K) (h : SameState s t) (l : Txt) :
    (s.data toFloat l = none ∧ t.data ((splitComma l).map fun f => (readInt f, toFloat f)) = none) ∨
    ∃ s' t', s.data toFloat l = some s' ∧ t.data ((splitComma l).map fun f => (readInt f, toFloat f)) = some t' ∧ SameState s' t' := by
  obtain ⟨h1, h2, h3, h4⟩ := h
  cases hr : s.record with
  | none =>
    rw [hr] at h3
    left
    constructor
    · rw [TextState.data, hr]; rfl
    · have h3 : t.kind = none := h3.symm
      simp only [InpState.data, h3]
  | some r =>
    rw [hr] at h3
    have h3 : t.kind = some (kindOf r) := h3.symm
    simp only [TextState.data, InpState.data, hr, h3, Option.bind_some]
    by_cases hh : startsWith kwHeading r = true
    · have e1 : startsWith kwNode r = false := startsWith_clash hh (by decide +kernel) (by decide +kernel)
      have e2 : startsWith kwTet r = false := startsWith_clash hh (by decide +kernel) (by decide +kernel)
      simp only [hh, if_true, kindOf, e1, e2, Bool.false_and, Bool.false_eq_true, if_false]
      exact Or.inr ⟨s, t, rfl, rfl, h1, h2, by rw [hr, h3]; simp [kindOf, e1, e2], h4⟩
    rw [if_neg hh]
    by_cases hn : (startsWith kwNode r && !startsWith kwNodeOutput r) = true
    · simp only [kindOf, hn, if_true]
      match splitComma l with
      | [a, x, y, z] =>
        simp only [List.map_cons, List.map_nil]
        cases toFloat x <;> cases toFloat y <;> cases toFloat z <;> simp
        exact ⟨by rw [h1], h2, by simp only [Option.map_some, kindOf, hn, if_true], h4⟩
      | [] | [_] | [_, _] | [_, _, _] | _ :: _ :: _ :: _ :: _ :: _ => simp
    rw [if_neg hn]
    by_cases ht : startsWith kwTet r = true
    · simp only [kindOf, hn, ht, if_true, Bool.false_eq_true, if_false]
      match splitComma l with
      | [_, a, b, c, d] =>
        simp only [List.map_cons, List.map_nil]
        cases readInt a <;> cases readInt b <;> cases readInt c <;> cases readInt d <;> simp
        rw [h2, h4]
        cases appendLast t.tris _ with
        | none => simp
        | some ts => simpa using ⟨h1, rfl, by simp only [Option.map_some, kindOf, hn, ht, if_true, if_false, Bool.false_eq_true], rfl⟩
      | [] | [_] | [_, _] | [_, _, _] | [_, _, _, _] | _ :: _ :: _ :: _ :: _ :: _ :: _ => simp
    · rw [if_neg ht]
      simp only [kindOf, hn, ht, if_false, Bool.false_eq_true]
      exact Or.inr ⟨s, t, rfl, rfl, h1, h2, by rw [hr, h3]; rfl, h4⟩

theorem step_records (toFloat : Txt → Option K) (s : TextState K) (t : InpState K) (h : SameState s t) (l : Txt) (hl : l ≠ []) (hs : l ≠ ['*']) :
    (s.step toFloat l = none ∧ t.step (recordOf toFloat l) = none) ∨
    ∃ s' t', s.step toFloat l = some s' ∧ t.step (recordOf toFloat l) = some t' ∧ SameState s' t' := by
  obtain ⟨c, r, rfl⟩ := List.exists_cons_of_ne_nil hl
  by_cases hc : c = '*'
  · subst hc
    have hr : r ≠ [] := fun e => hs (by rw [e])
    obtain ⟨d, r, rfl⟩ := List.exists_cons_of_ne_nil hr
    right
    by_cases hd : d = '*'
    · subst hd
      exact ⟨s, t, by simp [TextState.step], by simp [recordOf, InpState.step], h⟩
    · have e1 : s.step toFloat ('*' :: d :: r) = some (s.keyword ('*' :: d :: r)) := step_keyword toFloat s ⟨d, r, rfl, hd⟩
      obtain ⟨h1, h2, -, h4⟩ := h
      have e2 : recordOf toFloat ('*' :: d :: r) = (if startsWith kwPart (pyUpper ('*' :: d :: r)) then InpLine.part
          else if startsWith kwTet (pyUpper ('*' :: d :: r)) then .element
          else if startsWith kwNode (pyUpper ('*' :: d :: r)) && !startsWith kwNodeOutput (pyUpper ('*' :: d :: r)) then .node
          else .keyword) := by
        rw [recordOf]
        intro x hx
        exact hd (List.cons.inj hx).1
      rw [e1, e2]
      simp only [TextState.keyword]
      by_cases hp : startsWith kwPart (pyUpper ('*' :: d :: r)) = true
      · have f1 : startsWith kwNode (pyUpper ('*' :: d :: r)) = false := startsWith_clash hp (by decide +kernel) (by decide +kernel)
        have f2 : startsWith kwTet (pyUpper ('*' :: d :: r)) = false := startsWith_clash hp (by decide +kernel) (by decide +kernel)
        simp only [hp, if_true]
        exact ⟨_, _, rfl, rfl, h1, h2, by simp [kindOf, f1, f2], by simp [h1]⟩
      simp only [hp, if_false, Bool.false_eq_true]
      by_cases ht : startsWith kwTet (pyUpper ('*' :: d :: r)) = true
      · have f1 : startsWith kwNode (pyUpper ('*' :: d :: r)) = false := startsWith_clash ht (by decide +kernel) (by decide +kernel)
        simp only [ht, if_true]
        exact ⟨_, _, rfl, rfl, h1, by simp [h2], by simp [kindOf, f1, ht], h4⟩
      simp only [ht, if_false, Bool.false_eq_true]
      by_cases hn : (startsWith kwNode (pyUpper ('*' :: d :: r)) && !startsWith kwNodeOutput (pyUpper ('*' :: d :: r))) = true
      · simp only [hn, if_true]
        exact ⟨_, _, rfl, rfl, h1, h2, by simp only [Option.map_some, kindOf, hn, if_true], h4⟩
      · simp only [hn, if_false, Bool.false_eq_true]
        exact ⟨_, _, rfl, rfl, h1, h2, by simp only [Option.map_some, kindOf, hn, ht, if_false, Bool.false_eq_true], h4⟩
  · have e2 : recordOf toFloat (c :: r) = .data ((splitComma (c :: r)).map fun f => (readInt f, toFloat f)) := by
      rw [recordOf]
      · rintro x hx
        exact hc (List.cons.inj hx).1
      · rintro x hx
        exact hc (List.cons.inj hx).1
    rw [step_data toFloat s ⟨c, r, rfl, hc⟩, e2, InpState.step]
    exact data_records toFloat s t h (c :: r)

/-- **C126** (records): reading the text is reading its records, so that C57 holds of all texts whose last line is not a single asterisk. -/
theorem C126_records (toFloat : Txt → Option K) (name text : Txt) (hname : InpName name) (flip : Bool) (h : ['*'] ∉ pyLines text) :
    (readInpText toFloat name text flip).map (fun r => (r.1, r.2.1)) = readInp ((pyLines text).map (recordOf toFloat)) flip := by
  have key : ∀ (L : List Txt), ['*'] ∉ L → [] ∉ L → ∀ (s : TextState K) (t : InpState K), SameState s t →
      (textRun toFloat s L = none ∧ inpRun t (L.map (recordOf toFloat)) = none) ∨
      ∃ s' t', textRun toFloat s L = some s' ∧ inpRun t (L.map (recordOf toFloat)) = some t' ∧ SameState s' t' := by
    intro L
    induction L with
    | nil => intro _ _ s t h; exact Or.inr ⟨s, t, rfl, rfl, h⟩
    | cons l L ih =>
      intro h1 h2 s t hst
      rw [List.mem_cons, not_or] at h1 h2
      rw [textRun, List.map_cons, inpRun]
      rcases step_records toFloat s t hst l (Ne.symm h2.1) (Ne.symm h1.1) with ⟨e1, e2⟩ | ⟨s', t', e1, e2, e3⟩
      · left
        rw [e1, e2]
        exact ⟨rfl, rfl⟩
      · rw [e1, e2]
        exact ih h1.2 h2.2 s' t' e3
  have hne : ([] : Txt) ∉ pyLines text := fun hc => ((C126_lines text).2.1 _ hc).1 rfl
  rw [readInpText, if_pos ((C126_isInp name).2 hname), readInp]
  rcases key _ h hne {} {} ⟨rfl, rfl, rfl, rfl⟩ with ⟨e1, e2⟩ | ⟨s', t', e1, e2, e3, e4, -, -⟩
  · rw [e1, e2]; rfl
  · rw [e1, e2]
    simp [e3, e4]

/-! ## the script -/

theorem lower_iff_upper (c d : Char) (hd : ¬ (65 ≤ d.toNat ∧ d.toNat ≤ 90)) : c.toLower = d ↔ c.toUpper = d.toUpper := by
  rw [char_eq_iff, char_eq_iff, toLower_toNat, toUpper_toNat, toUpper_toNat]
  (repeat' split) <;> omega

theorem map_lower_iff (v w : Txt) (hw : ∀ d ∈ w, ¬ (65 ≤ d.toNat ∧ d.toNat ≤ 90)) : v.map Char.toLower = w ↔ SameLetters v w := by
  unfold SameLetters
  induction v generalizing w with
  | nil => cases w <;> simp
  | cons c v ih =>
    cases w with
    | nil => simp
    | cons d w =>
      simp only [List.map_cons, List.cons.injEq, List.forall₂_cons]
      rw [lower_iff_upper c d (hw d List.mem_cons_self), ih w fun x hx => hw x (List.mem_cons_of_mem _ hx)]

/-- The words for yes and no. -/
def flagWords : Bool → List String
  | true => ["yes", "true", "t", "y", "1"]
  | false => ["no", "false", "f", "n", "0"]

/-- **C126** (option): the values are the words for yes and no, in letters of any case, and no other text is accepted. -/
theorem C126_flag (v : Txt) (b : Bool) : str2bool v = some b ↔ ∃ w ∈ flagWords b, SameLetters v w.toList := by
  have hlow : ∀ b, ∀ w ∈ flagWords b, ∀ d ∈ w.toList, ¬ (65 ≤ d.toNat ∧ d.toNat ≤ 90) := by decide +kernel
  have key : ∀ b, String.ofList (v.map Char.toLower) ∈ flagWords b ↔ ∃ w ∈ flagWords b, SameLetters v w.toList := by
    intro b
    constructor
    · intro h
      refine ⟨_, h, ?_⟩
      rw [← map_lower_iff v _ (hlow b _ h), String.toList_ofList]
    · rintro ⟨w, hw, h⟩
      rw [← map_lower_iff v _ (hlow b _ hw)] at h
      rw [h, String.ofList_toList]
      exact hw
  have hdis : ∀ w ∈ flagWords false, w ∉ flagWords true := by decide +kernel
  rw [← key, str2bool]
  show (if _ ∈ flagWords true then some true else if _ ∈ flagWords false then some false else none) = some b ↔ _
  split
  · rename_i h
    cases b with
    | true => simpa using h
    | false => simpa using fun h' => hdis _ h' h
  · rename_i h
    split
    · rename_i h'
      cases b with
      | true => simpa using h
      | false => simpa using h'
    · rename_i h'
      cases b with
      | true => simpa using h
      | false => simpa using h'

theorem meshFileName_get (out : Txt) (mats : List Txt) {n : Nat} (h1 : n ≠ 1) (i : Nat) :
    ∃ a, meshFileName out mats n i = a ++ '-' :: (pyStr (i + 1) ++ ['.', 's', 't', 'l']) := by
  have e : ".stl".toList = ['.', 's', 't', 'l'] := by decide +kernel
  simp only [meshFileName, if_neg h1, e]
  cases mats[i]? with
  | some m => exact ⟨(if isStl out then out.take (out.length - 4) else out) ++ ['-'] ++ m, by simp⟩
  | none => exact ⟨if isStl out then out.take (out.length - 4) else out, by simp⟩

/-- **C126** (option): triangles are flipped if `--flip` is given without a value or with one that means yes. -/
theorem C126_option (o : Option (Option Txt)) (b : Bool) : flipOption o = some b ↔
    (o = none ∧ b = false) ∨ (o = some none ∧ b = true) ∨ ∃ v, o = some (some v) ∧ ∃ w ∈ flagWords b, SameLetters v w.toList := by
  match o with
  | none => simp [flipOption, eq_comm]
  | some none => simp [flipOption, eq_comm]
  | some (some v) => simp [flipOption, C126_flag]

/-- **C126** (script): every mesh is written to a file of its own; a single one to the file that is asked for, which must be an STL file; of
several ones, the file of the `i`-th mesh is named after the `i`-th set. -/
theorem C126_script_partial (toFloat : Txt → Option ℝ) (input text out : Txt) (flip : Option (Option Txt)) (f : Bool) (verts : List (V3 ℝ))
    (tris : List (List Tri3)) (mats : List Txt) (hf : flipOption flip = some f) (hr : readInpText toFloat input text f = some (verts, tris, mats))
    (hne : tris ≠ []) (hm : ∀ m ∈ tris, m ≠ [] ∧ ∀ t ∈ m, TriOK verts t) (hout : tris.length = 1 → isStl out = true) :
    ∃ files, inp2stl toFloat input text out flip = some files ∧ files.length = tris.length ∧ (files.map Prod.fst).Nodup ∧
      ∀ i m, tris[i]? = some m → ∃ name lines fs, files[i]? = some (name, lines) ∧ IsSolid lines fs ∧ List.Forall₂ (Shows verts) m fs ∧
        (tris.length = 1 → name = out) ∧
        ∀ pre n, tris.length ≠ 1 → out = pre ++ ['.', 's', 't', 'l'] → mats[i]? = some n →
          name = pre ++ ['-'] ++ n ++ ['-'] ++ Nat.toDigits 10 (i + 1) ++ ['.', 's', 't', 'l'] := by
  have hv : ∀ m ∈ tris, VertsOK verts m ∧ m ≠ [] := by
    intro m hmm
    refine ⟨fun t ht => ?_, (hm m hmm).1⟩
    obtain ⟨a, b, c, ha, hb, hc, -⟩ := (hm m hmm).2 t ht
    exact ⟨⟨a, ha⟩, ⟨b, hb⟩, c, hc⟩
  obtain ⟨box, hbox, -⟩ := C87_box verts tris hne hv
  have hname : ∀ i, isStl (meshFileName out mats tris.length i) = true := by
    intro i
    by_cases h1 : tris.length = 1
    · simp [meshFileName, h1, hout h1]
    · obtain ⟨a, ha⟩ := meshFileName_get out mats h1 i
      rw [ha, show a ++ '-' :: (pyStr (i + 1) ++ ['.', 's', 't', 'l']) = (a ++ '-' :: pyStr (i + 1)) ++ ['.', 's', 't', 'l'] by simp]
      exact isStl_append _
  have hex : ∀ m ∈ tris, ∃ lines, writeStl verts m = some lines ∧ ∃ fs, IsSolid lines fs ∧ List.Forall₂ (Shows verts) m fs := by
    intro m hmm
    obtain ⟨lines, fs, h1, h2, h3⟩ := C87_file verts m (hm m hmm).2
    exact ⟨lines, h1, fs, h2, h3⟩
  choose! wr hwr using hex
  refine ⟨tris.zipIdx.map fun (ts, i) => (meshFileName out mats tris.length i, wr ts), ?_, by simp, ?_, ?_⟩
  · rw [inp2stl, hf, Option.bind_some, hr, Option.bind_some]
    simp only [hbox, Option.bind_some]
    refine mapM_some ?_
    rintro ⟨m, i⟩ hmi
    have hmem : m ∈ tris := (List.mem_zipIdx' hmi).2 ▸ List.getElem_mem _
    simp [writeStlFile, hname, (hwr m hmem).1]
  · rw [List.map_map, List.nodup_iff_injective_getElem]
    rintro ⟨i, hi⟩ ⟨j, hj⟩ hij
    simp only [List.length_map, List.length_zipIdx] at hi hj
    simp only [List.getElem_map, List.getElem_zipIdx, Function.comp, Nat.zero_add] at hij
    rw [Fin.mk.injEq]
    by_cases h1 : tris.length = 1
    · omega
    · obtain ⟨a, ha⟩ := meshFileName_get out mats h1 i
      obtain ⟨b, hb⟩ := meshFileName_get out mats h1 j
      rw [ha, hb] at hij
      have := pyStr_inj (List.append_cancel_right (after_hyphen (hyphen_not_in_pyStr _) (hyphen_not_in_pyStr _) hij))
      omega
  · intro i m hi
    have hmem : m ∈ tris := List.mem_of_getElem? hi
    obtain ⟨h1, fs, h2, h3⟩ := hwr m hmem
    refine ⟨meshFileName out mats tris.length i, wr m, fs, ?_, h2, h3, ?_, ?_⟩
    · simp [List.getElem?_zipIdx, hi]
    · intro h
      simp [meshFileName, h]
    · rintro pre n h rfl hn
      have e : ".stl".toList = ['.', 's', 't', 'l'] := by decide +kernel
      simp only [meshFileName, if_neg h, hn, isStl_append, if_true, e, pyStr]
      simp

/-! ## where the claim is false -/

/-- Whole numbers, for the examples. -/
def floatInt (s : Txt) : Option Int := readInt s

/-- The lines of four nodes. -/
def fourNodes : String := "*NODE\n1,0,0,0\n2,1,0,0\n3,0,1,0\n4,0,0,1\n"

set_option synthInstance.maxSize 1000 in
/-- **C126** is false: without the blank after the comma, or with the parameters in another order, the tetrahedra are passed over without
an error. -/
theorem C126_spelling_false :
    readInpText floatInt "a.inp".toList (fourNodes ++ "*ELEMENT,TYPE=C3D4\n1,1,2,3,4\n").toList false =
      some ([⟨0, 0, 0⟩, ⟨1, 0, 0⟩, ⟨0, 1, 0⟩, ⟨0, 0, 1⟩], [], []) ∧
    readInpText floatInt "a.inp".toList (fourNodes ++ "*ELEMENT, ELSET=A, TYPE=C3D4\n1,1,2,3,4\n").toList false =
      some ([⟨0, 0, 0⟩, ⟨1, 0, 0⟩, ⟨0, 1, 0⟩, ⟨0, 0, 1⟩], [], []) := by decide +kernel

/-- **C126** is false: empty lines, a comma at the end of a line, requests of output for nodes, and text before the first keyword are
errors. -/
theorem C126_lines_false :
    readInpText floatInt "a.inp".toList (fourNodes ++ "\n*STEP\n").toList false = none ∧
    readInpText floatInt "a.inp".toList "*NODE\n1,0,0,0,\n".toList false = none ∧
    readInpText floatInt "a.inp".toList (fourNodes ++ "*NODE PRINT\nU\n").toList false = none ∧
    readInpText floatInt "a.inp".toList ("\n" ++ fourNodes).toList false = none := by decide +kernel

set_option synthInstance.maxSize 1000 in
/-- **C126** is false: `PT_` is taken out of the middle of names, and parameters that follow belong to the name. -/
theorem C126_set_false :
    readInpText floatInt "a.inp".toList (fourNodes ++ "*ELEMENT, TYPE=C3D4, ELSET=OPT_1\n1,1,2,3,4\n").toList false =
      some ([⟨0, 0, 0⟩, ⟨1, 0, 0⟩, ⟨0, 1, 0⟩, ⟨0, 0, 1⟩], [[(0, 1, 2), (0, 3, 1), (3, 2, 1), (3, 0, 2)]], ["O1".toList]) ∧
    readInpText floatInt "a.inp".toList (fourNodes ++ "*ELEMENT, TYPE=C3D4, ELSET=A, INPUT=F\n1,1,2,3,4\n").toList false =
      some ([⟨0, 0, 0⟩, ⟨1, 0, 0⟩, ⟨0, 1, 0⟩, ⟨0, 0, 1⟩], [[(0, 1, 2), (0, 3, 1), (3, 2, 1), (3, 0, 2)]], ["A, INPUT=F".toList]) := by
  decide +kernel

/-! ## concrete cases -/

set_option synthInstance.maxSize 1000 in
/-- A file with two parts, comments, keywords in small letters, blanks in front of numbers and a record that is passed over. -/
example : readInpText floatInt "Body.INP".toList
    ("** made by hand\n*Part, name=P\n*Node\n1, 0, 0, 0\n2, 1, 0, 0\n** half\n3, 0, 1, 0\n4, 0, 0, 1\n*Element, type=C3D4, elset=PT_one\n1, 1, 2, 3, 4\n" ++
      "*Node Output\nU, V\n\n*PART\n*NODE\n9,5,5,5\n10,6,5,5\n11,5,6,5\n12,5,5,6\n*ELEMENT, TYPE=C3D4\n7,1,2,3,4").toList false =
    some ([⟨0, 0, 0⟩, ⟨1, 0, 0⟩, ⟨0, 1, 0⟩, ⟨0, 0, 1⟩, ⟨5, 5, 5⟩, ⟨6, 5, 5⟩, ⟨5, 6, 5⟩, ⟨5, 5, 6⟩],
      [[(0, 1, 2), (0, 3, 1), (3, 2, 1), (3, 0, 2)], [(4, 5, 6), (4, 7, 5), (7, 6, 5), (7, 4, 6)]], ["ONE".toList]) := by decide +kernel

/-- The hypotheses of `C126_file_partial` for a file with a comment, nodes, a named set and a record that is passed over. -/
example : ∃ (L : List Txt) (bs : List (InpBlock Int)), L.length = 6 ∧ (∀ l ∈ L, IsLine l) ∧ Says floatInt L bs ∧
    InpBlock.nodesOf bs = [⟨1, 2, 3⟩] ∧ InpBlock.namesOf bs = ["S".toList] ∧ InpBlock.meshesOf 0 0 bs = [[(0, 0, 0), (0, 0, 0), (0, 0, 0), (0, 0, 0)]] := by
  have kw : ∀ (p : Txt) (l : String), pyUpper p = p → startsWith p (pyUpper l.toList) = true → Begins p l.toList := fun p l h1 h2 => (begins_iff p _ h1).2 h2
  refine ⟨["*Node\n".toList, "1, 1, 2, 3\n".toList, "*Element, type=C3D4, elset=PT_s\n".toList, "1, 1, 1, 1, 1\n".toList, "*STEP\n".toList, "\n".toList],
    [.nodes [⟨1, 2, 3⟩], .tets (some "S".toList) [(1, 1, 1, 1)], .other], rfl, ?_, ?_, by decide +kernel, by decide +kernel, by decide +kernel⟩
  · intro l hl
    simp only [List.mem_cons, List.not_mem_nil, or_false] at hl
    rcases hl with rfl | rfl | rfl | rfl | rfl | rfl
    · exact ⟨"*Node".toList, by decide +kernel, by decide +kernel⟩
    · exact ⟨"1, 1, 2, 3".toList, by decide +kernel, by decide +kernel⟩
    · exact ⟨"*Element, type=C3D4, elset=PT_s".toList, by decide +kernel, by decide +kernel⟩
    · exact ⟨"1, 1, 1, 1, 1".toList, by decide +kernel, by decide +kernel⟩
    · exact ⟨"*STEP".toList, by decide +kernel, by decide +kernel⟩
    · exact ⟨[], by decide +kernel, by decide +kernel⟩
  · refine Says.nodes _ ["1, 1, 2, 3\n".toList] _ _ _ (kw kwNode _ upper_kwNode (by decide +kernel)) ?_ ?_ ?_
    · exact fun h => absurd ((begins_iff kwNodeOutput _ upper_kwNodeOutput).1 h) (by decide +kernel)
    · refine .cons ⟨⟨'1', ", 1, 2, 3\n".toList, by decide +kernel, by decide⟩, "1".toList, " 1".toList, " 2".toList, " 3\n".toList, by decide +kernel, by decide +kernel,
        by decide +kernel, by decide +kernel, by decide +kernel, by decide +kernel, by decide +kernel, by decide +kernel⟩ .nil
    · refine Says.tets _ ["1, 1, 1, 1, 1\n".toList] _ _ _ _ (kw kwTet _ upper_kwTet (by decide +kernel)) ?_ ?_ ?_
      · have e : "*Element, type=C3D4, elset=PT_s\n".toList = "*Element, type=C3D4".toList ++ ", ".toList ++ "elset=".toList ++ "PT_".toList ++ "s".toList ++ ['\n'] := by
          decide +kernel
        rw [e]
        have hs : some "S".toList = some ("s".toList.map Char.toUpper) := by decide +kernel
        rw [hs]
        refine .pt _ _ _ _ _ ?_ (by decide +kernel) ?_ ?_ ?_
        · rw [sameLetters_iff]; decide +kernel
        · rw [sameLetters_iff]; decide +kernel
        · rw [sameLetters_iff]
        · rw [occurs_iff _ _ (by decide +kernel)]
          rintro ⟨a, b, h⟩
          have := congrArg List.length h
          have e3 : "PT_".toList.length = 3 := by decide +kernel
          have e1 : (pyUpper "s".toList).length = 1 := by decide +kernel
          simp only [List.length_append] at this
          omega
      · refine .cons ⟨⟨'1', ", 1, 1, 1, 1\n".toList, by decide +kernel, by decide⟩, "1".toList, " 1".toList, " 1".toList, " 1".toList, " 1\n".toList, by decide +kernel,
          by decide +kernel, ?_, ?_, ?_, ?_⟩ .nil
        · exact ⟨[' '], [], by simp [Blanks], by simp [Blanks], by decide +kernel⟩
        · exact ⟨[' '], [], by simp [Blanks], by simp [Blanks], by decide +kernel⟩
        · exact ⟨[' '], [], by simp [Blanks], by simp [Blanks], by decide +kernel⟩
        · exact ⟨[' '], ['\n'], by simp [Blanks], by simp [Blanks], by decide +kernel⟩
      · refine Says.other "*STEP\n".toList ["\n".toList] [] [] ⟨'S', "TEP\n".toList, by decide +kernel, by decide⟩ ?_ ?_ ?_ ?_ .nil
        · exact fun h => absurd ((begins_iff kwPart _ upper_kwPart).1 h) (by decide +kernel)
        · exact fun h => absurd ((begins_iff kwTet _ upper_kwTet).1 h) (by decide +kernel)
        · exact fun h => absurd ((begins_iff kwNode _ upper_kwNode).1 h) (by decide +kernel)
        · intro d hd
          simp only [List.mem_cons, List.not_mem_nil, or_false] at hd
          exact ⟨'\n', [], by rw [hd]; decide +kernel, by decide⟩

/-- Values of the option. -/
example : str2bool "Yes".toList = some true ∧ str2bool "F".toList = some false ∧ str2bool "on".toList = none := by decide +kernel

end PM
