import Verif.Cloud
import Verif.TopoLemmas
import Mathlib.Algebra.Order.Field.Rat
import Mathlib.LinearAlgebra.Matrix.NonsingularInverse
import Mathlib.Data.Fin.VecNotation
import Mathlib.Algebra.BigOperators.Group.List.Basic

/-!
# Point clouds and frames (C44, C45, C61)
-/

namespace PM

/-! ## C44 recorded indices -/

/-- The cloud `c` keeps track of the cloud `orig`: it is the original cloud, or each of its points is the point of the original
cloud with the recorded index. -/
def Tracks {P : Type} (orig : List P) (c : PCloud P) : Prop :=
  match c.inds with
  | none => c.arr = orig
  | some inds => inds.length = c.arr.length ∧
      ∀ (i : Nat) (k : Int), inds[i]? = some k → 0 ≤ k ∧ ∃ p, c.arr[i]? = some p ∧ orig[k.toNat]? = some p

/-- Keys for which the recorded indices are right, for a cloud of `n` points: slices with non-negative bounds within the cloud
and a positive step, non-negative numbers within the cloud, and masks if indices were recorded before. -/
def GoodKey (n : Nat) (recorded : Bool) : PCKey → Prop
  | .slice s t c => (∀ a, s = some a → 0 ≤ a) ∧ (∀ b, t = some b → 0 ≤ b ∧ b ≤ n) ∧ ∀ d, c = some d → 0 < d
  | .ints l => ∀ k ∈ l, 0 ≤ k ∧ k < n
  | .int k => 0 ≤ k ∧ k < n
  | .mask l => recorded = true ∧ l.length = n

theorem mem_pyRange {a b c x : Int} (hc : 0 < c) (h : x ∈ pyRange a b c) : a ≤ x ∧ x < b := by
  unfold pyRange at h
  rw [if_pos hc, List.mem_map] at h
  obtain ⟨k, hk, rfl⟩ := h
  rw [List.mem_range] at hk
  constructor
  · have : 0 ≤ c * (k : Int) := Int.mul_nonneg hc.le (by omega)
    omega
  · have h1 : (k : Int) < (b - a + c - 1) / c := by omega
    have h2 : (k : Int) + 1 ≤ (b - a + c - 1) / c := by omega
    have h3 := (Int.le_ediv_iff_mul_le hc).1 h2
    have h4 : ((k : Int) + 1) * c = c * k + c := by ring
    omega

theorem pyRange_empty {a b c : Int} (hc : 0 < c) (h : b ≤ a) : pyRange a b c = [] := by
  rw [List.eq_nil_iff_forall_not_mem]
  intro x hx
  have := mem_pyRange hc hx
  omega

theorem npTake_nat {α : Type} (a : List α) {js : List Nat} (h : ∀ j ∈ js, j < a.length) :
    npTake a (js.map Int.ofNat) = gather? a js := by
  unfold npTake gather?
  induction js with
  | nil => rfl
  | cons j js ih =>
    have hj := h j List.mem_cons_self
    have e : npIndex a.length (Int.ofNat j) = some j := by
      unfold npIndex
      rw [if_pos ⟨Int.natCast_nonneg j, by simpa using hj⟩]
      simp
    rw [List.map_cons, List.mapM_cons, List.mapM_cons, ih fun j hj => h j (List.mem_cons_of_mem _ hj), e]
    rfl

theorem toNats {l : List Int} (h : ∀ k ∈ l, 0 ≤ k) : (l.map Int.toNat).map Int.ofNat = l := by
  rw [List.map_map]
  conv_rhs => rw [← List.map_id l]
  apply List.map_congr_left
  intro k hk
  simp [h k hk]

/-- The places a good key selects. -/
theorem goodKey_spec {n : Nat} {r : Bool} {key : PCKey} (h : GoodKey n r key) :
    ∃ js : List Nat, (∀ j ∈ js, j < n) ∧ (∀ (α : Type) (a : List α), a.length = n → arrGet a key = gather? a js) ∧
      ((∀ l, key ≠ .mask l) → rawInds n key = js.map Int.ofNat) := by
  have hlist : ∀ l : List Int, (∀ k ∈ l, 0 ≤ k ∧ k < n) → ∃ js : List Nat, (∀ j ∈ js, j < n) ∧
      (∀ (α : Type) (a : List α), a.length = n → npTake a l = gather? a js) ∧ l = js.map Int.ofNat := by
    intro l hl
    refine ⟨l.map Int.toNat, ?_, ?_, (toNats fun k hk => (hl k hk).1).symm⟩
    · intro j hj
      rw [List.mem_map] at hj
      obtain ⟨k, hk, rfl⟩ := hj
      have := hl k hk
      omega
    · intro α a ha
      conv_lhs => rw [← toNats fun k hk => (hl k hk).1]
      refine npTake_nat a ?_
      intro j hj
      rw [List.mem_map] at hj
      obtain ⟨k, hk, rfl⟩ := hj
      have := hl k hk
      omega
  cases key with
  | slice s t c =>
    obtain ⟨h1, h2, h3⟩ := h
    have hc : 0 < c.getD 1 := by
      cases c with
      | none => simp
      | some d => simpa using h3 d rfl
    have hs : sliceInds n s t c = some (pyRange (s.getD 0) (t.getD n) (c.getD 1)) := by
      unfold sliceInds
      simp only [if_pos hc]
      congr 1
      have ht : (t.map (clampUp n)).getD n = t.getD n := by
        cases t with
        | none => rfl
        | some b =>
          have := h2 b rfl
          simp only [Option.map_some, Option.getD_some, clampUp]
          rw [if_neg (by omega)]
          omega
      rw [ht]
      have htn : t.getD n ≤ n := by
        cases t with
        | none => simp
        | some b => simpa using (h2 b rfl).2
      cases s with
      | none => rfl
      | some a =>
        have := h1 a rfl
        simp only [Option.map_some, Option.getD_some, clampUp]
        rw [if_neg (by omega)]
        rcases le_total a n with e | e
        · rw [min_eq_left e]
        · rw [min_eq_right e, pyRange_empty hc htn, pyRange_empty hc (by omega)]
    have hb : ∀ k ∈ pyRange (s.getD 0) (t.getD n) (c.getD 1), 0 ≤ k ∧ k < (n : Int) := by
      intro k hk
      have := mem_pyRange hc hk
      have h0 : 0 ≤ s.getD 0 := by
        cases s with
        | none => simp
        | some a => simpa using h1 a rfl
      have htn : t.getD n ≤ n := by
        cases t with
        | none => simp
        | some b => simpa using (h2 b rfl).2
      omega
    obtain ⟨js, e1, e2, e3⟩ := hlist _ hb
    refine ⟨js, e1, fun α a ha => ?_, fun _ => e3⟩
    simp only [arrGet]
    rw [ha, hs]
    exact e2 α a ha
  | ints l =>
    obtain ⟨js, e1, e2, e3⟩ := hlist l h
    exact ⟨js, e1, e2, fun _ => e3⟩
  | int k =>
    obtain ⟨js, e1, e2, e3⟩ := hlist [k] (by simpa [GoodKey] using h)
    exact ⟨js, e1, e2, fun _ => e3⟩
  | mask l =>
    obtain ⟨-, hl⟩ := h
    have key : ∀ (l : List Bool), ∃ js : List Nat, (∀ j ∈ js, j < l.length) ∧ ∀ (α : Type) (a : List α), a.length = l.length →
        (a.zip l).filterMap (fun x => if x.2 then some x.1 else none) = js.filterMap fun j => a[j]? := by
      intro l
      induction l with
      | nil => exact ⟨[], by simp, fun α a ha => by simp⟩
      | cons b l ih =>
        obtain ⟨js, e1, e2⟩ := ih
        cases b with
        | false =>
          refine ⟨js.map (· + 1), by simpa using e1, fun α a ha => ?_⟩
          cases a with
          | nil => simp at ha
          | cons x a =>
            simp only [List.zip_cons_cons, List.filterMap_cons, Bool.false_eq_true, if_false, List.filterMap_map,
              Function.comp_def, List.getElem?_cons_succ]
            exact e2 α a (by simpa using ha)
        | true =>
          refine ⟨0 :: js.map (· + 1), by simpa using e1, fun α a ha => ?_⟩
          cases a with
          | nil => simp at ha
          | cons x a =>
            simp only [List.zip_cons_cons, List.filterMap_cons, if_true, List.filterMap_map,
              Function.comp_def, List.getElem?_cons_succ, List.getElem?_cons_zero]
            rw [e2 α a (by simpa using ha)]
    obtain ⟨js, e1, e2⟩ := key l
    refine ⟨js, by rw [← hl]; exact e1, fun α a ha => ?_, fun hk => absurd rfl (hk l)⟩
    simp only [arrGet, npMask]
    rw [if_pos (by omega), e2 α a (by omega)]
    symm
    unfold gather?
    have hlt : ∀ j ∈ js, j < a.length := fun j hj => by rw [ha, ← hl]; exact e1 j hj
    clear e2 e1
    induction js with
    | nil => rfl
    | cons j js ih =>
      have hj := hlt j List.mem_cons_self
      rw [List.mapM_cons, ih fun j hj => hlt j (List.mem_cons_of_mem _ hj), List.filterMap_cons,
        List.getElem?_eq_getElem hj]
      rfl

theorem gather_get {α : Type} {a : List α} {js : List Nat} (h : ∀ j ∈ js, j < a.length) :
    ∃ r, gather? a js = some r ∧ r.length = js.length ∧ ∀ (i j : Nat), js[i]? = some j → r[i]? = a[j]? := by
  obtain ⟨r, h1, h2, h3⟩ := mapM_exists (P := fun _ n y => a[n]? = some y) (f := fun i => a[i]?) (l := js)
    (by
      intro i n hn
      have := h n (List.mem_of_getElem? hn)
      exact ⟨a[n], List.getElem?_eq_getElem this, List.getElem?_eq_getElem this⟩)
  refine ⟨r, h1, h2, fun i n hn => ?_⟩
  have hi : i < r.length := by rw [h2]; exact (List.getElem?_eq_some_iff.1 hn).1
  rw [h3 i n r[i] hn (List.getElem?_eq_getElem hi), List.getElem?_eq_getElem hi]

/-- One indexing step with a good key. -/
theorem get_tracks {P : Type} {orig : List P} {c : PCloud P} (hc : Tracks orig c) {key : PCKey}
    (hk : GoodKey c.arr.length c.inds.isSome key) :
    ∃ c', c.get key = some c' ∧ c'.inds.isSome ∧ arrGet c.arr key = some c'.arr ∧ Tracks orig c' := by
  obtain ⟨js, h1, h2, h3⟩ := goodKey_spec hk
  obtain ⟨a, ha, hal, hag⟩ := gather_get (a := c.arr) h1
  have harr := (h2 P c.arr rfl).trans ha
  cases hi : c.inds with
  | none =>
    unfold Tracks at hc
    rw [hi] at hc
    have hnm : ∀ l, key ≠ .mask l := by
      rintro l rfl
      unfold GoodKey at hk
      rw [hi] at hk
      exact absurd hk.1 (by simp)
    refine ⟨⟨a, some (js.map Int.ofNat)⟩, ?_, rfl, harr, ?_⟩
    · unfold PCloud.get newInds
      simp only [hi, Option.bind_some, harr, Option.map_some, h3 hnm]
    · refine ⟨by simp [hal], fun i k hik => ?_⟩
      rw [List.getElem?_map] at hik
      cases hj : js[i]? with
      | none => rw [hj] at hik; cases hik
      | some j =>
        rw [hj] at hik
        have hjl := h1 j (List.mem_of_getElem? hj)
        have : k = (j : Int) := (Option.some.inj hik).symm
        subst this
        refine ⟨by omega, c.arr[j], ?_, ?_⟩
        · show a[i]? = _
          rw [hag i j hj, List.getElem?_eq_getElem hjl]
        · rw [← hc]
          simp
  | some inds =>
    have hc' : inds.length = c.arr.length ∧
        ∀ (i : Nat) (k : Int), inds[i]? = some k → 0 ≤ k ∧ ∃ p, c.arr[i]? = some p ∧ orig[k.toNat]? = some p := by
      unfold Tracks at hc
      rw [hi] at hc
      exact hc
    obtain ⟨I, hI, hIl, hIg⟩ := gather_get (a := inds) (js := js) (by rw [hc'.1]; exact h1)
    have hnew : newInds c key = some I := by
      unfold newInds
      rw [hi]
      cases key with
      | mask l => exact (h2 Int inds hc'.1).trans hI
      | slice s t d =>
        simp only
        rw [h3 (by simp), npTake_nat inds (by rw [hc'.1]; exact h1), hI]
      | ints l =>
        simp only
        rw [h3 (by simp), npTake_nat inds (by rw [hc'.1]; exact h1), hI]
      | int l =>
        simp only
        rw [h3 (by simp), npTake_nat inds (by rw [hc'.1]; exact h1), hI]
    refine ⟨⟨a, some I⟩, ?_, rfl, harr, ?_⟩
    · unfold PCloud.get
      simp only [hnew, Option.bind_some, harr, Option.map_some]
    · refine ⟨by rw [hIl, hal], fun i k hik => ?_⟩
      have hil : i < js.length := by rw [← hIl]; exact (List.getElem?_eq_some_iff.1 hik).1
      have hj : js[i]? = some js[i] := List.getElem?_eq_getElem hil
      rw [hIg i _ hj] at hik
      obtain ⟨e1, p, e2, e3⟩ := hc'.2 _ k hik
      exact ⟨e1, p, by rw [← e2]; exact hag i _ hj, e3⟩

/-- All keys of a chain are good for the clouds they are applied to. -/
def GoodChain {P : Type} : PCloud P → List PCKey → Prop
  | _, [] => True
  | c, key :: keys => GoodKey c.arr.length c.inds.isSome key ∧ ∀ c', c.get key = some c' → GoodChain c' keys

/-- Repeated indexing with good keys: the recorded indices of the result refer to the original cloud. -/
theorem C44_partial {P : Type} (orig : List P) (keys : List PCKey) (h : GoodChain ⟨orig, none⟩ keys) (hne : keys ≠ []) :
    ∃ c inds, PCloud.gets ⟨orig, none⟩ keys = some c ∧ c.inds = some inds ∧ inds.length = c.arr.length ∧
      ∀ (i : Nat) (k : Int), inds[i]? = some k → 0 ≤ k ∧ ∃ p, c.arr[i]? = some p ∧ orig[k.toNat]? = some p := by
  have main : ∀ (keys : List PCKey) (c : PCloud P), Tracks orig c → GoodChain c keys →
      ∃ c', c.gets keys = some c' ∧ Tracks orig c' ∧ (c.inds.isSome ∨ keys ≠ [] → c'.inds.isSome) := by
    intro keys
    induction keys with
    | nil => intro c hc _; exact ⟨c, rfl, hc, by simp⟩
    | cons key keys ih =>
      intro c hc hk
      obtain ⟨c1, h1, h2, -, h3⟩ := get_tracks hc hk.1
      obtain ⟨c2, h4, h5, h6⟩ := ih c1 h3 (hk.2 c1 h1)
      refine ⟨c2, ?_, h5, fun _ => h6 (Or.inl h2)⟩
      unfold PCloud.gets at h4 ⊢
      rw [List.foldlM_cons, h1]
      exact h4
  obtain ⟨c, h1, h2, h3⟩ := main keys ⟨orig, none⟩ rfl h
  have h4 := h3 (Or.inr hne)
  cases hi : c.inds with
  | none => rw [hi] at h4; cases h4
  | some inds =>
    unfold Tracks at h2
    rw [hi] at h2
    exact ⟨c, inds, h1, hi, h2.1, h2.2⟩

/-- `cloud[1:5][[1, 3]][::2]`. -/
example : (PCloud.gets ⟨[10, 11, 12, 13, 14, 15], none⟩ [.slice (some 1) (some 5) none, .ints [1, 3], .slice none none (some 2)] :
    Option (PCloud Nat)).map (fun c => (c.arr, c.inds)) = some ([12], some [2]) := by decide +kernel

example : GoodChain (⟨[10, 11, 12, 13, 14, 15], none⟩ : PCloud Nat)
    [.slice (some 1) (some 5) none, .ints [1, 3], .slice none none (some 2)] := by
  refine ⟨⟨by simp, by simp, by simp⟩, fun c hc => ?_⟩
  have e : c = ⟨[11, 12, 13, 14], some [1, 2, 3, 4]⟩ := Option.some.inj (hc.symm.trans rfl)
  subst e
  refine ⟨by simp [GoodKey], fun c hc => ?_⟩
  have e : c = ⟨[12, 14], some [2, 4]⟩ := Option.some.inj (hc.symm.trans rfl)
  subst e
  exact ⟨⟨by simp, by simp, by simp⟩, fun c hc => trivial⟩

/-- Place `q` of a list of length `n` is the one Python's index `k` stands for: negative ones count from the end. -/
def PyPlace (n : Nat) (k : Int) (q : Nat) : Prop := q < n ∧ ((q : Int) = k ∨ k < 0 ∧ (q : Int) = k + n)

theorem npTake_places {α : Type} (a : List α) {l : List Int} (h : ∀ k ∈ l, -(a.length : Int) ≤ k ∧ k < a.length) :
    ∃ r, npTake a l = some r ∧ r.length = l.length ∧
      ∀ (i : Nat) (k : Int), l[i]? = some k → ∀ q, PyPlace a.length k q → r[i]? = a[q]? := by
  obtain ⟨r, h1, h2, h3⟩ := mapM_exists (l := l) (f := fun k => (npIndex a.length k).bind fun i => a[i]?)
    (P := fun _ k y => ∀ q, PyPlace a.length k q → a[q]? = some y) (by
      intro i k hk
      have hb := h k (List.mem_of_getElem? hk)
      unfold npIndex
      by_cases h0 : 0 ≤ k
      · have hl : k.toNat < a.length := by omega
        refine ⟨a[k.toNat], by rw [if_pos ⟨h0, hb.2⟩, Option.bind_some, List.getElem?_eq_getElem hl], ?_⟩
        rintro q ⟨hq, e | e⟩
        · obtain rfl : q = k.toNat := by omega
          exact List.getElem?_eq_getElem hl
        · omega
      · have hl : (k + a.length).toNat < a.length := by omega
        refine ⟨a[(k + a.length).toNat], by rw [if_neg (by omega), if_pos ⟨hb.1, by omega⟩, Option.bind_some,
          List.getElem?_eq_getElem hl], ?_⟩
        rintro q ⟨hq, e | e⟩
        · omega
        · obtain rfl : q = (k + a.length).toNat := by omega
          exact List.getElem?_eq_getElem hl)
  refine ⟨r, h1, h2, fun i k hk q hq => ?_⟩
  have hi : i < r.length := by rw [h2]; exact (List.getElem?_eq_some_iff.1 hk).1
  rw [List.getElem?_eq_getElem hi, h3 i k _ hk (List.getElem?_eq_getElem hi) q hq]

/-- The lists of integers of a chain are within the clouds they are applied to, from the end or from the beginning. -/
def PyChain {P : Type} : PCloud P → List (List Int) → Prop
  | _, [] => True
  | c, l :: ls => (∀ k ∈ l, -(c.arr.length : Int) ≤ k ∧ k < c.arr.length) ∧ ∀ c', c.get (.ints l) = some c' → PyChain c' ls

/-- **C44** for lists of integers, also negative ones: the recorded indices of the result refer to the original cloud as Python
reads them. -/
theorem C44_integers {P : Type} (orig : List P) (ls : List (List Int)) (h : PyChain ⟨orig, none⟩ ls) (hne : ls ≠ []) :
    ∃ c inds, PCloud.gets ⟨orig, none⟩ (ls.map PCKey.ints) = some c ∧ c.inds = some inds ∧ inds.length = c.arr.length ∧
      ∀ (i : Nat) (k : Int), inds[i]? = some k → ∃ q p, PyPlace orig.length k q ∧ c.arr[i]? = some p ∧ orig[q]? = some p := by
  have place : ∀ {n : Nat} {k : Int}, -(n : Int) ≤ k ∧ k < n → ∃ q, PyPlace n k q := by
    intro n k hk
    by_cases h0 : 0 ≤ k
    · exact ⟨k.toNat, by omega, Or.inl (by omega)⟩
    · exact ⟨(k + n).toNat, by omega, Or.inr ⟨by omega, by omega⟩⟩
  have main : ∀ (ls : List (List Int)) (c : PCloud P) (I : List Int), c.inds = some I → I.length = c.arr.length →
      (∀ (i : Nat) (k : Int), I[i]? = some k → ∃ q p, PyPlace orig.length k q ∧ c.arr[i]? = some p ∧ orig[q]? = some p) →
      PyChain c ls → ∃ c' I', c.gets (ls.map PCKey.ints) = some c' ∧ c'.inds = some I' ∧ I'.length = c'.arr.length ∧
      ∀ (i : Nat) (k : Int), I'[i]? = some k → ∃ q p, PyPlace orig.length k q ∧ c'.arr[i]? = some p ∧ orig[q]? = some p := by
    intro ls
    induction ls with
    | nil => exact fun c I h1 h2 h3 _ => ⟨c, I, rfl, h1, h2, h3⟩
    | cons l ls ih =>
      intro c I h1 h2 h3 hc
      obtain ⟨a, ha, hal, hag⟩ := npTake_places c.arr hc.1
      obtain ⟨J, hJ, hJl, hJg⟩ := npTake_places I (l := l) (by rw [h2]; exact hc.1)
      have hget : c.get (.ints l) = some ⟨a, some J⟩ := by
        unfold PCloud.get newInds
        rw [h1]
        simp only [rawInds, hJ, Option.bind_some, arrGet, ha, Option.map_some]
      obtain ⟨c', I', e1, e2⟩ := ih ⟨a, some J⟩ J rfl (by rw [hJl]; exact hal.symm) (by
        intro i k hik
        have hil : i < l.length := by rw [← hJl]; exact (List.getElem?_eq_some_iff.1 hik).1
        obtain ⟨q, hq⟩ := place (hc.1 _ (List.getElem_mem hil))
        rw [hJg i _ (List.getElem?_eq_getElem hil) q (by rw [h2]; exact hq)] at hik
        obtain ⟨q', p, f1, f2, f3⟩ := h3 q k hik
        exact ⟨q', p, f1, by rw [← f2]; exact hag i _ (List.getElem?_eq_getElem hil) q hq, f3⟩) (hc.2 _ hget)
      refine ⟨c', I', ?_, e2⟩
      unfold PCloud.gets at e1 ⊢
      rw [List.map_cons, List.foldlM_cons, hget]
      exact e1
  cases ls with
  | nil => exact absurd rfl hne
  | cons l ls =>
    obtain ⟨a, ha, hal, hag⟩ := npTake_places orig h.1
    have hget : PCloud.get ⟨orig, none⟩ (.ints l) = some ⟨a, some l⟩ := by
      unfold PCloud.get newInds
      simp only [rawInds, Option.bind_some, arrGet, ha, Option.map_some]
    obtain ⟨c, I, e1, e2⟩ := main ls ⟨a, some l⟩ l rfl hal.symm (by
      intro i k hik
      obtain ⟨q, hq⟩ := place (h.1 _ (List.mem_of_getElem? hik))
      have hq' : q < orig.length := hq.1
      exact ⟨q, orig[q], hq, by rw [← List.getElem?_eq_getElem hq']; exact hag i k hik q hq, List.getElem?_eq_getElem hq'⟩)
      (h.2 _ hget)
    refine ⟨c, I, ?_, e2⟩
    unfold PCloud.gets at e1 ⊢
    rw [List.map_cons, List.foldlM_cons, hget]
    exact e1

/-- `cloud[[-1, 0, -3]][[-2, -3]]`. -/
example : (PCloud.gets ⟨[10, 11, 12, 13], none⟩ [.ints [-1, 0, -3], .ints [-2, -3]] : Option (PCloud Nat)).map
    (fun c => (c.arr, c.inds)) = some ([10, 13], some [0, -1]) := by decide +kernel

/-- A negative bound: `cloud[-2:]`. -/
theorem C44_negative_false : ¬ ∀ (orig : List Nat) (c : PCloud Nat) (a : Int),
    PCloud.get ⟨orig, none⟩ (.slice (some a) none none) = some c → Tracks orig c := by
  intro h
  have := h [10, 11, 12] ⟨[11, 12], some [-2, -1, 0, 1, 2]⟩ (-2) rfl
  exact absurd this.1 (by decide)

/-- A bound beyond the end: `cloud[0:5]` of three points. -/
theorem C44_long_false : ¬ ∀ (orig : List Nat) (c : PCloud Nat) (a b : Nat),
    PCloud.get ⟨orig, none⟩ (.slice (some a) (some b) none) = some c → Tracks orig c := by
  intro h
  have := h [10, 11, 12] ⟨[10, 11, 12], some [0, 1, 2, 3, 4]⟩ 0 5 rfl
  exact absurd this.1 (by decide)

/-- `cloud[0:5]` of three points when indices were recorded before: an error although the array has this slice. -/
theorem C44_long_recorded_false : ¬ ∀ (c : PCloud Nat) (inds : List Int) (key : PCKey), c.inds = some inds →
    inds.length = c.arr.length → (arrGet c.arr key).isSome → (c.get key).isSome := by
  intro h
  have := h ⟨[10, 11, 12], some [4, 5, 6]⟩ [4, 5, 6] (.slice (some 0) (some 5) none) rfl rfl (by decide +kernel)
  exact absurd this (by decide +kernel)

/-- Reversing: `cloud[::-1]` has no recorded indices. -/
theorem C44_reverse_false : ¬ ∀ (orig : List Nat) (c : PCloud Nat) (d : Int),
    PCloud.get ⟨orig, none⟩ (.slice none none (some d)) = some c → Tracks orig c := by
  intro h
  have := h [10, 11, 12] ⟨[12, 11, 10], some []⟩ (-1) rfl
  exact absurd this.1 (by decide)

/-- A boolean mask on a cloud without recorded indices: the truth values become the indices. -/
theorem C44_mask_false : ¬ ∀ (orig : List Nat) (c : PCloud Nat) (l : List Bool),
    PCloud.get ⟨orig, none⟩ (.mask l) = some c → Tracks orig c := by
  intro h
  have := h [10, 11, 12] ⟨[11, 12], some [0, 1, 1]⟩ [false, true, true] rfl
  exact absurd this.1 (by decide)

/-! ### which points slices select -/

/-- Specification: place `i` of `n` is not before the bound `b` (negative bounds count from the end, no bound excludes nothing). -/
def NotBefore (n : Nat) (b : Option Int) (i : Nat) : Prop := ∀ k, b = some k → (if k < 0 then k + n else k) ≤ i

/-- Specification: place `i` of `n` is not after the bound `b`. -/
def NotAfter (n : Nat) (b : Option Int) (i : Nat) : Prop := ∀ k, b = some k → (i : Int) ≤ if k < 0 then k + n else k

instance (n : Nat) (b : Option Int) (i : Nat) : Decidable (NotBefore n b i) :=
  match b with
  | none => isTrue fun _ h => nomatch h
  | some k => decidable_of_iff ((if k < 0 then k + n else k) ≤ (i : Int)) ⟨fun h _ e => Option.some.inj e ▸ h, fun h => h k rfl⟩

instance (n : Nat) (b : Option Int) (i : Nat) : Decidable (NotAfter n b i) :=
  match b with
  | none => isTrue fun _ h => nomatch h
  | some k => decidable_of_iff ((i : Int) ≤ if k < 0 then k + n else k) ⟨fun h _ e => Option.some.inj e ▸ h, fun h => h k rfl⟩

theorem notBefore_none (n i : Nat) : NotBefore n none i ↔ True := ⟨fun _ => trivial, fun _ _ h => nomatch h⟩

theorem notBefore_some (n i : Nat) (k : Int) : NotBefore n (some k) i ↔ (if k < 0 then k + n else k) ≤ i :=
  ⟨fun h => h k rfl, fun h _ e => Option.some.inj e ▸ h⟩

theorem notAfter_none (n i : Nat) : NotAfter n none i ↔ True := ⟨fun _ => trivial, fun _ _ h => nomatch h⟩

theorem notAfter_some (n i : Nat) (k : Int) : NotAfter n (some k) i ↔ (i : Int) ≤ if k < 0 then k + n else k :=
  ⟨fun h => h k rfl, fun h _ e => Option.some.inj e ▸ h⟩

theorem pyRange_up {n : Nat} {a b : Int} (ha : 0 ≤ a) (hb : b ≤ n) :
    pyRange a b 1 = ((List.range n).filter fun i : Nat => decide (a ≤ i ∧ (i : Int) < b)).map Int.ofNat := by
  rw [← toNats (l := pyRange a b 1) fun k hk => by have := mem_pyRange (by decide) hk; omega]
  congr 1
  refine List.Pairwise.eq_of_mem_iff (r := (· < ·)) ?_ (List.pairwise_lt_range.filter _) fun i => ?_
  · simp only [pyRange, if_pos (show (0 : Int) < 1 by decide), List.map_map]
    refine List.pairwise_map.2 (List.pairwise_lt_range.imp fun {x y} h => ?_)
    simp only [Function.comp]
    omega
  · simp only [pyRange, if_pos (show (0 : Int) < 1 by decide), List.map_map, List.mem_map, List.mem_range, List.mem_filter, Function.comp, decide_eq_true_eq]
    constructor
    · rintro ⟨k, hk, rfl⟩
      omega
    · rintro ⟨h1, h2, h3⟩
      exact ⟨i - a.toNat, by omega, by omega⟩

theorem pyRange_down {n : Nat} {a b : Int} (ha : a < n) (hb : -1 ≤ b) :
    pyRange a b (-1) = (((List.range n).filter fun i : Nat => decide (b < i ∧ (i : Int) ≤ a)).reverse).map Int.ofNat := by
  have hk : ∀ k ∈ pyRange a b (-1), 0 ≤ k := by
    intro k hk
    simp only [pyRange, if_neg (show ¬ (0 : Int) < -1 by decide), if_pos (show (-1 : Int) < 0 by decide), Int.neg_neg, Int.ediv_one, List.mem_map, List.mem_range] at hk
    obtain ⟨i, hi, rfl⟩ := hk
    omega
  rw [← toNats hk]
  congr 1
  refine List.Pairwise.eq_of_mem_iff (r := (· > ·)) ?_ (List.pairwise_reverse.2 (List.pairwise_lt_range.filter _)) fun i => ?_
  · simp only [pyRange, if_neg (show ¬ (0 : Int) < -1 by decide), if_pos (show (-1 : Int) < 0 by decide), Int.neg_neg, Int.ediv_one, List.map_map]
    refine List.pairwise_map.2 ?_
    refine List.Pairwise.imp_of_mem (fun {x y} hx hy h => ?_) List.pairwise_lt_range
    simp only [Function.comp, List.mem_range] at *
    omega
  · simp only [pyRange, if_neg (show ¬ (0 : Int) < -1 by decide), if_pos (show (-1 : Int) < 0 by decide), Int.neg_neg, Int.ediv_one, List.map_map, List.mem_map, List.mem_range,
      List.mem_reverse, List.mem_filter, Function.comp, decide_eq_true_eq]
    constructor
    · rintro ⟨k, hk, rfl⟩
      omega
    · rintro ⟨h1, h2, h3⟩
      exact ⟨a.toNat - i, by omega, by omega⟩

/-- **C44** the points of a slice: those from the first bound on, before the second, in order; with step minus one those from the first bound back,
after the second, in reverse order. Nothing is assumed of the bounds. -/
theorem C44_slices {P : Type} (a : List P) (s t : Option Int) :
    arrGet a (.slice s t none) = gather? a ((List.range a.length).filter fun i => decide (NotBefore a.length s i ∧ ¬ (t ≠ none ∧ NotBefore a.length t i))) ∧
    arrGet a (.slice s t (some (-1))) =
      gather? a ((List.range a.length).filter fun i => decide (NotAfter a.length s i ∧ ¬ (t ≠ none ∧ NotAfter a.length t i))).reverse := by
  constructor
  · simp only [arrGet, sliceInds, Option.getD_none, if_pos (show (0 : Int) < 1 by decide), Option.bind_some]
    rw [pyRange_up (n := a.length), npTake_nat]
    · congr 1
      refine List.filter_congr fun i hi => ?_
      have hi := List.mem_range.1 hi
      rw [decide_eq_decide]
      cases s <;> cases t <;> simp [clampUp, notBefore_none, notBefore_some] <;>
        (repeat' split) <;> omega
    · intro j hj
      exact List.mem_range.1 (List.mem_filter.1 hj).1
    · cases s with
      | none => simp
      | some k => simp only [Option.map_some, Option.getD_some, clampUp]; split <;> omega
    · cases t with
      | none => simp
      | some k => simp only [Option.map_some, Option.getD_some, clampUp]; split <;> omega
  · simp only [arrGet, sliceInds, Option.getD_some, if_neg (show ¬ (0 : Int) < -1 by decide), if_pos (show (-1 : Int) < 0 by decide), Option.bind_some]
    rw [pyRange_down (n := a.length), npTake_nat]
    · congr 2
      refine List.filter_congr fun i hi => ?_
      have hi := List.mem_range.1 hi
      rw [decide_eq_decide]
      cases s <;> cases t <;> simp [clampDown, notAfter_none, notAfter_some] <;>
        (repeat' split) <;> omega
    · intro j hj
      exact List.mem_range.1 (List.mem_filter.1 (List.mem_reverse.1 hj)).1
    · cases s with
      | none => simp
      | some k => simp only [Option.map_some, Option.getD_some, clampDown]; split <;> omega
    · cases t with
      | none => simp
      | some k => simp only [Option.map_some, Option.getD_some, clampDown]; split <;> omega

/-- A concrete case. -/
example : arrGet [10, 11, 12, 13] (.slice (some (-9)) (some (-1)) none) = some [10, 11, 12] ∧
    arrGet [10, 11, 12, 13] (.slice (some (-2)) none (some (-1))) = some [12, 11, 10] := by decide +kernel

theorem pyRange_step {c : Nat} (hc : 0 < c) (a b : Int) (i : Nat) :
    (pyRange a b c)[i]? = (pyRange a b 1)[c * i]? ∧ (pyRange a b (-c))[i]? = (pyRange a b (-1))[c * i]? := by
  have hc' : (0 : Int) < c := by omega
  have key : ∀ d : Int, i < ((d + c - 1) / c).toNat ↔ c * i < d.toNat := by
    intro d
    have h1 : (i : Int) < (d + c - 1) / c ↔ (i : Int) * c < d := by
      rw [show (i : Int) < (d + c - 1) / c ↔ (i : Int) + 1 ≤ (d + c - 1) / c from Iff.rfl, Int.le_ediv_iff_mul_le hc']
      constructor <;> intro h <;> nlinarith
    have h2 : ((c * i : Nat) : Int) = (i : Int) * c := by push_cast; ring
    omega
  constructor
  · have := key (b - a)
    simp only [pyRange, if_pos hc', if_pos (show (0 : Int) < 1 by decide), List.getElem?_map]
    by_cases h : i < ((b - a + c - 1) / c).toNat
    · rw [List.getElem?_range h, List.getElem?_range (by have := this.1 h; simpa using this)]
      simp
    · rw [List.getElem?_eq_none (by simpa using h), List.getElem?_eq_none (by simp; have := mt this.2 h; omega), Option.map_none, Option.map_none]
  · have := key (a - b)
    simp only [pyRange, if_neg (show ¬ (0 : Int) < -c by omega), if_pos (show -(c : Int) < 0 by omega), if_neg (show ¬ (0 : Int) < -1 by decide),
      if_pos (show (-1 : Int) < 0 by decide), List.getElem?_map, neg_neg, sub_neg_eq_add]
    by_cases h : i < ((a - b + c - 1) / c).toNat
    · rw [List.getElem?_range h, List.getElem?_range (by have := this.1 h; simpa using this)]
      simp
    · rw [List.getElem?_eq_none (by simpa using h), List.getElem?_eq_none (by simp; have := mt this.2 h; omega), Option.map_none, Option.map_none]

theorem gather_total {P : Type} (a : List P) {l : List Nat} (h : ∀ i ∈ l, i < a.length) : ∃ r, gather? a l = some r := by
  obtain ⟨r, hr, _⟩ := mapM_exists (P := fun _ _ _ => True) (f := fun i => a[i]?) (l := l) fun i x hx =>
    ⟨a[x]'(h x (List.mem_of_getElem? hx)), List.getElem?_eq_getElem _, trivial⟩
  exact ⟨r, hr⟩

theorem take_step {P : Type} {a : List P} {l m : List Int} {r : List P} (c : Nat) (hl : npTake a l = some r) (h : ∀ i, m[i]? = l[c * i]?) :
    ∃ s, npTake a m = some s ∧ ∀ i, s[i]? = r[c * i]? := by
  obtain ⟨s, hs, hlen, hP⟩ := mapM_exists (P := fun i _ y => r[c * i]? = some y) (f := fun k => (npIndex a.length k).bind fun i => a[i]?) (l := m)
    fun i x hx => by
      obtain ⟨b, h1, h2⟩ := mapM_get hl ((h i).symm.trans hx)
      exact ⟨b, h1, h2⟩
  refine ⟨s, hs, fun i => ?_⟩
  cases hm : m[i]? with
  | none =>
    have e1 := List.getElem?_eq_none_iff.1 hm
    have e2 := List.getElem?_eq_none_iff.1 ((h i).symm.trans hm)
    rw [List.getElem?_eq_none (by omega), List.getElem?_eq_none (by rw [mapM_length hl]; exact e2)]
  | some x =>
    obtain ⟨y, _, hy⟩ := mapM_get hs hm
    rw [hy, hP i x y hm hy]

/-- **C44** slices with other steps: with step `c` every `c`-th point of the slice with step one, beginning with its first; with step
`-c` every `c`-th point of the slice with step minus one. -/
theorem C44_steps {P : Type} (a : List P) (s t : Option Int) {c : Nat} (hc : 0 < c) :
    (∃ l r, arrGet a (.slice s t none) = some l ∧ arrGet a (.slice s t (some c)) = some r ∧ ∀ i : Nat, r[i]? = l[c * i]?) ∧
    ∃ l r, arrGet a (.slice s t (some (-1))) = some l ∧ arrGet a (.slice s t (some (-c))) = some r ∧ ∀ i : Nat, r[i]? = l[c * i]? := by
  have hc' : (0 : Int) < c := by omega
  obtain ⟨h1, h2⟩ := C44_slices a s t
  constructor
  · obtain ⟨l, hl⟩ := gather_total a (l := (List.range a.length).filter fun i => decide (NotBefore a.length s i ∧ ¬ (t ≠ none ∧ NotBefore a.length t i)))
      fun i hi => List.mem_range.1 (List.mem_filter.1 hi).1
    rw [hl] at h1
    simp only [arrGet, sliceInds, Option.getD_none, if_pos (show (0 : Int) < 1 by decide), Option.bind_some] at h1
    obtain ⟨r, hr, h⟩ := take_step c h1 fun i => (pyRange_step hc _ _ i).1
    refine ⟨l, r, ?_, ?_, h⟩
    · simpa only [arrGet, sliceInds, Option.getD_none, if_pos (show (0 : Int) < 1 by decide), Option.bind_some] using h1
    · simpa only [arrGet, sliceInds, Option.getD_some, if_pos hc', Option.bind_some] using hr
  · obtain ⟨l, hl⟩ := gather_total a (l := ((List.range a.length).filter fun i => decide (NotAfter a.length s i ∧ ¬ (t ≠ none ∧ NotAfter a.length t i))).reverse)
      fun i hi => List.mem_range.1 (List.mem_filter.1 (List.mem_reverse.1 hi)).1
    rw [hl] at h2
    simp only [arrGet, sliceInds, Option.getD_some, if_neg (show ¬ (0 : Int) < -1 by decide), if_pos (show (-1 : Int) < 0 by decide), Option.bind_some] at h2
    obtain ⟨r, hr, h⟩ := take_step c h2 fun i => (pyRange_step hc _ _ i).2
    refine ⟨l, r, ?_, ?_, h⟩
    · simpa only [arrGet, sliceInds, Option.getD_some, if_neg (show ¬ (0 : Int) < -1 by decide), if_pos (show (-1 : Int) < 0 by decide), Option.bind_some] using h2
    · simpa only [arrGet, sliceInds, Option.getD_some, if_neg (show ¬ (0 : Int) < -c by omega), if_pos (show -(c : Int) < 0 by omega), Option.bind_some] using hr

/-- A concrete case. -/
example : arrGet [10, 11, 12, 13, 14] (.slice (some 1) none (some 3)) = some [11, 14] ∧
    arrGet [10, 11, 12, 13, 14] (.slice none (some 0) (some (-3))) = some [14, 11] := by decide +kernel

/-- Sorting by indices: with any result of `argsort` the points keep their indices, and the indices are sorted. -/
theorem C44_sort {P : Type} {orig : List P} {c : PCloud P} {inds : List Int} (hc : Tracks orig c) (hi : c.inds = some inds)
    {s : List Nat} (hs : s.Perm (List.range inds.length))
    (hsort : (s.filterMap fun i => inds[i]?).Pairwise (· ≤ ·)) :
    ∃ c' I, c.sortWith s = some c' ∧ c'.inds = some I ∧ Tracks orig c' ∧ I.Pairwise (· ≤ ·) ∧ I.Perm inds ∧
      c'.arr.Perm c.arr := by
  have hc' : inds.length = c.arr.length ∧
      ∀ (i : Nat) (k : Int), inds[i]? = some k → 0 ≤ k ∧ ∃ p, c.arr[i]? = some p ∧ orig[k.toNat]? = some p := by
    unfold Tracks at hc
    rw [hi] at hc
    exact hc
  have hlt : ∀ j ∈ s, j < inds.length := fun j hj => List.mem_range.1 (hs.mem_iff.1 hj)
  obtain ⟨a, ha, hal, hag⟩ := gather_get (a := c.arr) (js := s) (by rw [← hc'.1]; exact hlt)
  obtain ⟨I, hI, hIl, hIg⟩ := gather_get (a := inds) (js := s) hlt
  have hfm : ∀ {α : Type} {l r : List α}, (∀ j ∈ s, j < l.length) → gather? l s = some r → s.filterMap (fun i => l[i]?) = r := by
    intro α l r h1 h2
    clear hs hsort hlt hag hIg hal hIl ha hI
    unfold gather? at h2
    induction s generalizing r with
    | nil => simpa using h2
    | cons j s ih =>
      have hj := h1 j List.mem_cons_self
      rw [List.mapM_cons, List.getElem?_eq_getElem hj] at h2
      cases h3 : List.mapM (fun i => l[i]?) s with
      | none => rw [h3] at h2; cases h2
      | some r' =>
        rw [h3] at h2
        have : r = l[j] :: r' := (Option.some.inj h2).symm
        subst this
        rw [List.filterMap_cons, List.getElem?_eq_getElem hj, ih (fun j hj => h1 j (List.mem_cons_of_mem _ hj)) h3]
  have hrange : ∀ {α : Type} (l : List α), (List.range l.length).filterMap (fun i => l[i]?) = l := by
    intro α l
    induction l with
    | nil => rfl
    | cons x l ih =>
      rw [List.length_cons, List.range_succ_eq_map, List.filterMap_cons]
      simp only [List.getElem?_cons_zero, List.filterMap_map, Function.comp_def, Nat.succ_eq_add_one,
        List.getElem?_cons_succ]
      rw [ih]
  refine ⟨⟨a, some I⟩, I, ?_, rfl, ⟨by rw [hIl, hal], ?_⟩, ?_, ?_, ?_⟩
  · unfold PCloud.sortWith
    simp only [hi, Option.bind_some, ha, hI, Option.map_some]
  · intro i k hik
    have hil : i < s.length := by rw [← hIl]; exact (List.getElem?_eq_some_iff.1 hik).1
    have hj : s[i]? = some s[i] := List.getElem?_eq_getElem hil
    rw [hIg i _ hj] at hik
    obtain ⟨e1, p, e2, e3⟩ := hc'.2 _ k hik
    exact ⟨e1, p, by rw [← e2]; exact hag i _ hj, e3⟩
  · rw [← hfm hlt hI]
    exact hsort
  · rw [← hfm hlt hI]
    have := (hs.filterMap fun i => inds[i]?)
    rwa [hrange] at this
  · rw [← hfm (by rw [← hc'.1]; exact hlt) ha]
    have := (hs.filterMap fun i => c.arr[i]?)
    rwa [hc'.1, hrange] at this

example : ((⟨[10, 20, 30], some [7, 2, 5]⟩ : PCloud Nat).sortWith [1, 2, 0]).map (fun c => (c.arr, c.inds)) =
    some ([20, 30, 10], some [2, 5, 7]) := by decide +kernel

/-! ## C45 points seen from frames -/

section
variable {K : Type} [Field K]

/-- The axes of a frame are orthonormal. -/
structure CFrame.Ortho (F : CFrame K) : Prop where
  ii : V3.dot F.i F.i = 1
  jj : V3.dot F.j F.j = 1
  kk : V3.dot F.k F.k = 1
  ij : V3.dot F.i F.j = 0
  ik : V3.dot F.i F.k = 0
  jk : V3.dot F.j F.k = 0

/-- The point of ambient space with coordinates `x` in the frame `F`. -/
def CFrame.place (F : CFrame K) (x : V3 K) : V3 K := F.origo + (x.x • F.i + (x.y • F.j + x.z • F.k))

theorem vecLoc_vecAmb {F : CFrame K} (h : F.Ortho) (x : V3 K) : F.vecLoc (F.vecAmb x) = x := by
  obtain ⟨h1, h2, h3, h4, h5, h6⟩ := h
  simp only [V3.dot] at h1 h2 h3 h4 h5 h6
  ext
  · simp only [CFrame.vecLoc, CFrame.vecAmb, V3.dot, V3.add_x, V3.add_y, V3.add_z, V3.smul_x, V3.smul_y, V3.smul_z]
    linear_combination x.x * h1 + x.y * h4 + x.z * h5
  · simp only [CFrame.vecLoc, CFrame.vecAmb, V3.dot, V3.add_x, V3.add_y, V3.add_z, V3.smul_x, V3.smul_y, V3.smul_z]
    linear_combination x.x * h4 + x.y * h2 + x.z * h6
  · simp only [CFrame.vecLoc, CFrame.vecAmb, V3.dot, V3.add_x, V3.add_y, V3.add_z, V3.smul_x, V3.smul_y, V3.smul_z]
    linear_combination x.x * h5 + x.y * h6 + x.z * h3

/-- The columns of a matrix with orthonormal rows are orthonormal. -/
theorem ortho_columns {F : CFrame K} (h : F.Ortho) :
    (F.i.x * F.i.x + F.j.x * F.j.x + F.k.x * F.k.x = 1 ∧ F.i.y * F.i.y + F.j.y * F.j.y + F.k.y * F.k.y = 1 ∧
      F.i.z * F.i.z + F.j.z * F.j.z + F.k.z * F.k.z = 1) ∧
    F.i.x * F.i.y + F.j.x * F.j.y + F.k.x * F.k.y = 0 ∧ F.i.x * F.i.z + F.j.x * F.j.z + F.k.x * F.k.z = 0 ∧
      F.i.y * F.i.z + F.j.y * F.j.z + F.k.y * F.k.z = 0 := by
  obtain ⟨h1, h2, h3, h4, h5, h6⟩ := h
  simp only [V3.dot] at h1 h2 h3 h4 h5 h6
  have hM : !![F.i.x, F.i.y, F.i.z; F.j.x, F.j.y, F.j.z; F.k.x, F.k.y, F.k.z] *
      !![F.i.x, F.j.x, F.k.x; F.i.y, F.j.y, F.k.y; F.i.z, F.j.z, F.k.z] = 1 := by
    ext a b
    rw [Matrix.mul_apply, Fin.sum_univ_three]
    fin_cases a <;> fin_cases b
    · simp; linear_combination h1
    · simp; linear_combination h4
    · simp; linear_combination h5
    · simp; linear_combination h4
    · simp; linear_combination h2
    · simp; linear_combination h6
    · simp; linear_combination h5
    · simp; linear_combination h6
    · simp; linear_combination h3
  have hM' := mul_eq_one_comm.1 hM
  have e : ∀ a b, (!![F.i.x, F.j.x, F.k.x; F.i.y, F.j.y, F.k.y; F.i.z, F.j.z, F.k.z] *
      !![F.i.x, F.i.y, F.i.z; F.j.x, F.j.y, F.j.z; F.k.x, F.k.y, F.k.z]) a b = (1 : Matrix (Fin 3) (Fin 3) K) a b :=
    fun a b => by rw [hM']
  simp only [Matrix.mul_apply, Fin.sum_univ_three] at e
  refine ⟨⟨?_, ?_, ?_⟩, ?_, ?_, ?_⟩
  · simpa using e 0 0
  · simpa using e 1 1
  · simpa using e 2 2
  · simpa using e 0 1
  · simpa using e 0 2
  · simpa using e 1 2

theorem vecAmb_vecLoc {F : CFrame K} (h : F.Ortho) (v : V3 K) : F.vecAmb (F.vecLoc v) = v := by
  obtain ⟨⟨h1, h2, h3⟩, h4, h5, h6⟩ := ortho_columns h
  ext
  · simp only [CFrame.vecLoc, CFrame.vecAmb, V3.dot, V3.add_x, V3.smul_x]
    linear_combination v.x * h1 + v.y * h4 + v.z * h5
  · simp only [CFrame.vecLoc, CFrame.vecAmb, V3.dot, V3.add_y, V3.smul_y]
    linear_combination v.x * h4 + v.y * h2 + v.z * h6
  · simp only [CFrame.vecLoc, CFrame.vecAmb, V3.dot, V3.add_z, V3.smul_z]
    linear_combination v.x * h5 + v.y * h6 + v.z * h3

theorem pcShow_none (F : CFrame K) (x : V3 K) : pcShow F none x = F.place x := by
  ext <;> simp [pcShow, vecShow, relativeOrigo, CFrame.place, CFrame.vecAmb] <;> ring

theorem pcShow_some (F T : CFrame K) (x : V3 K) : pcShow F (some T) x = T.vecLoc (F.place x - T.origo) := by
  ext <;> simp [pcShow, vecShow, relativeOrigo, ambShow, CFrame.place, CFrame.vecAmb, CFrame.vecLoc, V3.dot] <;> ring

theorem place_vecLoc {T : CFrame K} (h : T.Ortho) (p : V3 K) : T.place (T.vecLoc (p - T.origo)) = p := by
  have := vecAmb_vecLoc h (p - T.origo)
  unfold CFrame.vecAmb at this
  unfold CFrame.place
  rw [this]
  ext <;> simp

/-- `show` without a target gives ambient coordinates, with a target the coordinates of the same point in the target frame. -/
theorem C45_same_point {F T : CFrame K} (hT : T.Ortho) (x : V3 K) :
    pcShow F none x = F.place x ∧ T.place (pcShow F (some T) x) = F.place x := by
  refine ⟨pcShow_none F x, ?_⟩
  rw [pcShow_some, place_vecLoc hT]

/-- In the own frame the stored coordinates are shown. -/
theorem C45_own {F : CFrame K} (hF : F.Ortho) (x : V3 K) : pcShow F (some F) x = x := by
  rw [pcShow_some]
  have : F.place x - F.origo = F.vecAmb x := by
    ext <;> simp [CFrame.place, CFrame.vecAmb]
  rw [this, vecLoc_vecAmb hF]

/-- Viewing in another frame and back gives the original coordinates. -/
theorem C45_back {F T : CFrame K} (hF : F.Ortho) (hT : T.Ortho) (x : V3 K) : pcShow T (some F) (pcShow F (some T) x) = x := by
  rw [pcShow_some T F, (C45_same_point hT x).2, ← pcShow_some F F, C45_own hF]

/-- Distances do not depend on the frame. -/
theorem C45_distance {F T : CFrame K} (hF : F.Ortho) (hT : T.Ortho) (x y : V3 K) :
    V3.dot (pcShow F (some T) x - pcShow F (some T) y) (pcShow F (some T) x - pcShow F (some T) y) =
      V3.dot (x - y) (x - y) ∧
    V3.dot (pcShow F none x - pcShow F none y) (pcShow F none x - pcShow F none y) = V3.dot (x - y) (x - y) := by
  have hamb : ∀ (G : CFrame K), G.Ortho → ∀ u v : V3 K, V3.dot (G.place u - G.place v) (G.place u - G.place v) = V3.dot (u - v) (u - v) := by
    intro G h u v
    obtain ⟨h1, h2, h3, h4, h5, h6⟩ := h
    simp only [V3.dot] at h1 h2 h3 h4 h5 h6
    simp only [CFrame.place, V3.dot, V3.add_x, V3.add_y, V3.add_z, V3.smul_x, V3.smul_y, V3.smul_z, V3.sub_x, V3.sub_y, V3.sub_z]
    linear_combination (u.x - v.x) * (u.x - v.x) * h1 + (u.y - v.y) * (u.y - v.y) * h2 + (u.z - v.z) * (u.z - v.z) * h3 +
      2 * (u.x - v.x) * (u.y - v.y) * h4 + 2 * (u.x - v.x) * (u.z - v.z) * h5 + 2 * (u.y - v.y) * (u.z - v.z) * h6
  constructor
  · rw [← hamb T hT, (C45_same_point hT x).2, (C45_same_point hT y).2, hamb F hF]
  · rw [pcShow_none, pcShow_none, hamb F hF]

/-- Setting the frame of a cloud keeps the points where they are. -/
theorem C45_set_frame {F T : CFrame K} (hT : T.Ortho) (x : List (V3 K)) :
    (pcSetFrame F T x).1.map (pcSetFrame F T x).2.place = x.map F.place := by
  unfold pcSetFrame
  simp only [List.map_map]
  apply List.map_congr_left
  intro p _
  exact (C45_same_point hT p).2

/-- Views compose: going through a third frame makes no difference. -/
theorem C45_compose {F T S : CFrame K} (hT : T.Ortho) (x : V3 K) :
    pcShow T (some S) (pcShow F (some T) x) = pcShow F (some S) x := by
  rw [pcShow_some T S, (C45_same_point hT x).2, ← pcShow_some F S]

end

/-- A frame turned by a right angle about the third axis with origin at (1, 2, 3). -/
def turnedFrame : CFrame ℚ := ⟨⟨0, 1, 0⟩, ⟨-1, 0, 0⟩, ⟨0, 0, 1⟩, ⟨1, 2, 3⟩⟩

/-- A frame with oblique rational axes. -/
def obliqueFrame : CFrame ℚ := ⟨⟨3/5, 4/5, 0⟩, ⟨-4/5, 3/5, 0⟩, ⟨0, 0, 1⟩, ⟨-1, 0, 7⟩⟩

theorem turnedFrame_ortho : turnedFrame.Ortho := by
  constructor <;> decide +kernel

theorem obliqueFrame_ortho : obliqueFrame.Ortho := by
  constructor <;> decide +kernel

example : pcShow turnedFrame none ⟨10, 0, 0⟩ = ⟨1, 12, 3⟩ := by decide +kernel
example : pcShow turnedFrame (some obliqueFrame) ⟨10, 0, 0⟩ = ⟨54/5, 28/5, -4⟩ := by decide +kernel
example : pcShow obliqueFrame (some turnedFrame) ⟨54/5, 28/5, -4⟩ = ⟨10, 0, 0⟩ := by decide +kernel

/-! ## C61 motions of clouds and frames -/

section
variable {K : Type} [Field K]

/-- Moving a cloud by `v` in the frame `G`: seen from `G`, every point moves by `v`. -/
theorem C61_move_in_frame {F G : CFrame K} (hF : F.Ortho) (hG : G.Ortho) (x : List (V3 K)) (v : V3 K) :
    (pcMove F x v (some G)).map (pcShow F (some G)) = x.map fun y => pcShow F (some G) y + v := by
  unfold pcMove
  simp only [List.map_map]
  apply List.map_congr_left
  intro y _
  simp only [Function.comp]
  rw [pcShow_some, pcShow_some]
  have e : F.place (y + vecShow G (some F) v) = F.place y + G.vecAmb v := by
    have h := vecAmb_vecLoc hF (G.vecAmb v)
    have h' : F.place (y + vecShow G (some F) v) = F.place y + F.vecAmb (F.vecLoc (G.vecAmb v)) := by
      ext <;> simp [CFrame.place, CFrame.vecAmb, vecShow] <;> ring
    rw [h', h]
  rw [e]
  have e2 : G.vecLoc (F.place y + G.vecAmb v - G.origo) = G.vecLoc (F.place y - G.origo) + G.vecLoc (G.vecAmb v) := by
    ext <;> simp [CFrame.vecLoc, V3.dot] <;> ring
  rw [e2, vecLoc_vecAmb hG]

/-- Without a frame the vector is taken in the frame of the cloud. -/
theorem C61_move_own {F : CFrame K} (hF : F.Ortho) (x : List (V3 K)) (v : V3 K) :
    (pcMove F x v none).map (pcShow F (some F)) = x.map fun y => pcShow F (some F) y + v := by
  unfold pcMove
  simp only [List.map_map]
  apply List.map_congr_left
  intro y _
  simp only [Function.comp]
  rw [C45_own hF, C45_own hF]

/-- The documentation promises the root frame for a motion without a frame. -/
theorem C61_move_default_false : ¬ ∀ (F : CFrame ℚ) (x : List (V3 ℚ)) (v : V3 ℚ), F.Ortho →
    (pcMove F x v none).map (pcShow F none) = x.map fun y => pcShow F none y + v := by
  intro h
  have := h turnedFrame [⟨0, 0, 0⟩] ⟨1, 0, 0⟩ turnedFrame_ortho
  exact absurd this (by decide +kernel)

/-- Centring with respect to a frame: afterwards the centre, seen from this frame, is the origin. -/
theorem C61_centralize [CharZero K] {F T : CFrame K} (hF : F.Ortho) (hT : T.Ortho) {x : List (V3 K)} (hx : x ≠ []) :
    pcCenter F (some T) (pcCentralize F (some T) x) = 0 := by
  have hl : (x.length : K) ≠ 0 := by simpa using hx
  set c := pcCenter F (some T) x with hc
  have e : (pcCentralize F (some T) x).map (pcShow F (some T)) = x.map fun y => pcShow F (some T) y + -c := by
    unfold pcCentralize
    rw [C61_move_in_frame hF hT]
  have hlen : ((pcCentralize F (some T) x).map (pcShow F (some T))).length = x.length := by rw [e, List.length_map]
  clear_value c
  have hsum : ∀ f : V3 K → K, (∀ a b, f (a + b) = f a + f b) → ((x.map fun y => pcShow F (some T) y + -c).map f).sum =
      ((x.map (pcShow F (some T))).map f).sum + x.length * f (-c) := by
    intro f hf
    clear hc e hlen hl hx
    induction x with
    | nil => simp
    | cons a x ih =>
      simp only [List.map_cons, List.sum_cons, ih, List.length_cons, hf]
      push_cast
      ring
  have hcx : c.x = ((x.map (pcShow F (some T))).map V3.x).sum / x.length := by rw [hc]; simp [pcCenter]
  have hcy : c.y = ((x.map (pcShow F (some T))).map V3.y).sum / x.length := by rw [hc]; simp [pcCenter]
  have hcz : c.z = ((x.map (pcShow F (some T))).map V3.z).sum / x.length := by rw [hc]; simp [pcCenter]
  unfold pcCenter
  simp only [hlen]
  rw [e, hsum V3.x (by simp), hsum V3.y (by simp), hsum V3.z (by simp)]
  ext
  · simp only [V3.neg_x, V3.zero_x]
    rw [hcx]
    field_simp
    ring
  · simp only [V3.neg_y, V3.zero_y]
    rw [hcy]
    field_simp
    ring
  · simp only [V3.neg_z, V3.zero_z]
    rw [hcz]
    field_simp
    ring

/-- Without a target the centre in the root frame is subtracted in the frame of the cloud. -/
theorem C61_centralize_default_false : ¬ ∀ (F : CFrame ℚ) (x : List (V3 ℚ)), F.Ortho → x ≠ [] →
    pcCenter F none (pcCentralize F none x) = 0 := by
  intro h
  have := h turnedFrame [⟨0, 0, 0⟩] turnedFrame_ortho (by simp)
  exact absurd this (by decide +kernel)

/-- Moving a frame by `d` given in another frame shifts its origin by this vector and keeps its axes. -/
theorem C61_frame_move (F : CFrame K) (d : V3 K) (G : Option (CFrame K)) :
    (frameMove F d G).i = F.i ∧ (frameMove F d G).j = F.j ∧ (frameMove F d G).k = F.k ∧
      ∀ x, (frameMove F d G).place x = F.place x + (match G with
        | some G => d.x • G.i + (d.y • G.j + d.z • G.k)
        | none => d) := by
  refine ⟨rfl, rfl, rfl, fun x => ?_⟩
  cases G with
  | none => ext <;> simp [frameMove, CFrame.place] <;> ring
  | some G => ext <;> simp [frameMove, CFrame.place, CFrame.vecAmb] <;> ring

/-- The origin of a frame cannot be assigned. -/
theorem C61_origo_false : ¬ ∀ (F : CFrame ℚ) (v : V3 ℚ), ∃ F', setOrigo F v = some F' ∧ F'.origo = v := by
  intro h
  obtain ⟨F', h1, -⟩ := h turnedFrame ⟨0, 0, 0⟩
  cases h1

end

example : pcMove turnedFrame [⟨0, 0, 0⟩] ⟨1, 0, 0⟩ (some obliqueFrame) = [⟨4/5, -3/5, 0⟩] := by decide +kernel

end PM
