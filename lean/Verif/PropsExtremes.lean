import Verif.Extremes
import Verif.PropsCloud
import Verif.PropsFrames
import Mathlib.Tactic.Linarith

/-!
# C88: bounds, closest and furthest points of point clouds
-/

namespace PM

/-! ## bounds -/

section
variable {K : Type} [Field K] [LinearOrder K]

/-- `(a, b)` are the smallest and the largest of the numbers `f p` of the points of `S`. -/
structure IsRange (S : V3 K → Prop) (f : V3 K → K) (ab : K × K) : Prop where
  inside : ∀ p, S p → ab.1 ≤ f p ∧ f p ≤ ab.2
  least : ∃ p, S p ∧ f p = ab.1
  greatest : ∃ p, S p ∧ f p = ab.2

omit [Field K] in
theorem minmaxOf_spec (f : V3 K → K) (y : List (V3 K)) (h : y ≠ []) : ∃ ab, minmaxOf (y.map f) = some ab ∧ IsRange (· ∈ y) f ab := by
  have key : ∀ (l : List (V3 K)) (a b : K) (S : V3 K → Prop), IsRange S f (a, b) →
      IsRange (fun p => S p ∨ p ∈ l) f ((l.map f).foldl min a, (l.map f).foldl max b) := by
    intro l
    induction l with
    | nil => intro a b S h; simpa using h
    | cons q l ih =>
      intro a b S h
      have h1 : IsRange (fun p => S p ∨ p = q) f (min a (f q), max b (f q)) := by
        refine ⟨?_, ?_, ?_⟩
        · rintro p (hp | rfl)
          · exact ⟨min_le_of_left_le (h.inside p hp).1, le_max_of_le_left (h.inside p hp).2⟩
          · exact ⟨min_le_right _ _, le_max_right _ _⟩
        · obtain ⟨p, hp, e⟩ := h.least
          rcases le_total a (f q) with hl | hl
          · exact ⟨p, .inl hp, by rw [e]; exact (min_eq_left hl).symm⟩
          · exact ⟨q, .inr rfl, (min_eq_right hl).symm⟩
        · obtain ⟨p, hp, e⟩ := h.greatest
          rcases le_total b (f q) with hl | hl
          · exact ⟨q, .inr rfl, (max_eq_right hl).symm⟩
          · exact ⟨p, .inl hp, by rw [e]; exact (max_eq_left hl).symm⟩
      have := ih _ _ _ h1
      simpa [or_assoc] using this
  cases y with
  | nil => exact absurd rfl h
  | cons q l =>
    refine ⟨_, rfl, ?_⟩
    have := key l (f q) (f q) (· = q) ⟨by rintro p rfl; exact ⟨le_refl _, le_refl _⟩, ⟨q, rfl, rfl⟩, ⟨q, rfl, rfl⟩⟩
    simpa using this

omit [Field K] in
theorem boundsOf_spec (y : List (V3 K)) (h : y ≠ []) :
    ∃ b, boundsOf y = some b ∧ IsRange (· ∈ y) V3.x b.1 ∧ IsRange (· ∈ y) V3.y b.2.1 ∧ IsRange (· ∈ y) V3.z b.2.2 := by
  obtain ⟨a, ha, ha'⟩ := minmaxOf_spec V3.x y h
  obtain ⟨b, hb, hb'⟩ := minmaxOf_spec V3.y y h
  obtain ⟨c, hc, hc'⟩ := minmaxOf_spec V3.z y h
  exact ⟨(a, b, c), by simp [boundsOf, ha, hb, hc], ha', hb', hc'⟩

/-- `p` are the coordinates in the target frame (ambient ones without a target) of a point of the cloud. -/
def ShownIn (F : CFrame K) (target : Option (CFrame K)) (x : List (V3 K)) (p : V3 K) : Prop :=
  ∃ y ∈ x, match target with
    | none => p = F.place y
    | some T => T.place p = F.place y

omit [LinearOrder K] in
theorem place_inj {T : CFrame K} (h : T.Ortho) {p q : V3 K} (e : T.place p = T.place q) : p = q := by
  have := congrArg (fun v => T.vecLoc (v - T.origo)) e
  beta_reduce at this
  have hv : ∀ r, T.place r - T.origo = T.vecAmb r := by
    intro r
    ext <;> simp [CFrame.place, CFrame.vecAmb]
  rwa [hv, hv, vecLoc_vecAmb h, vecLoc_vecAmb h] at this

/-- **C88** (bounds): in every frame the bounds are the least and the greatest coordinates of the points of the cloud. -/
theorem C88_bounds (F : CFrame K) (target : Option (CFrame K)) (hT : ∀ T, target = some T → T.Ortho) (x : List (V3 K)) (h : x ≠ []) :
    ∃ b, pcBounds F target x = some b ∧ IsRange (ShownIn F target x) V3.x b.1 ∧ IsRange (ShownIn F target x) V3.y b.2.1 ∧
      IsRange (ShownIn F target x) V3.z b.2.2 := by
  have e : ShownIn F target x = (· ∈ x.map (pcShow F target)) := by
    funext p
    simp only [ShownIn, List.mem_map, eq_iff_iff]
    refine exists_congr fun y => and_congr_right fun _ => ?_
    cases target with
    | none => simp only; rw [pcShow_none]; exact eq_comm
    | some T =>
      simp only
      have hs := (C45_same_point (F := F) (hT T rfl) y).2
      exact ⟨fun h => place_inj (hT T rfl) (hs.trans h.symm), fun h => h ▸ hs⟩
  rw [e]
  exact boundsOf_spec _ (by simpa using h)

end

/-- A case: a cloud in a turned frame with another origin, seen from ambient space and from its own frame. -/
example : pcBounds turnedFrame none [⟨0, 0, 0⟩, ⟨1, 2, 3⟩] = some ((-1, 1), (2, 3), (3, 6)) ∧
    pcBounds turnedFrame (some turnedFrame) [⟨0, 0, 0⟩, ⟨1, 2, 3⟩] = some ((0, 1), (0, 2), (0, 3)) := by decide +kernel

/-! ## extremes -/

/-- Where the target is in ambient space. -/
def Target.place {K : Type} [Field K] : Target K → V3 K
  | .numbers p none => p
  | .numbers p (some G) => G.place p
  | .vector F p => F.place p
  | .cloud F p => F.place p

/-- Frames of numbers and vectors have the origin of ambient space; point clouds may have any frame. -/
def Target.Centred {K : Type} [Field K] : Target K → Prop
  | .numbers _ none => True
  | .numbers _ (some G) => G.origo = 0
  | .vector F _ => F.origo = 0
  | .cloud _ _ => True

theorem vecShow_place {K : Type} [Field K] (F : CFrame K) (p : V3 K) : F.place p = F.origo + vecShow F none p := by
  ext <;> simp [vecShow, CFrame.place, CFrame.vecAmb]

theorem Target.show_eq {K : Type} [Field K] (t : Target K) (h : t.Centred) : t.show = t.place := by
  match t, h with
  | .numbers p none, _ => rfl
  | .numbers p (some G), h =>
    simp only [Target.Centred] at h
    simp only [Target.show, Target.place, vecShow_place, h]
    ext <;> simp
  | .vector F p, h =>
    simp only [Target.Centred] at h
    simp only [Target.show, Target.place, vecShow_place, h]
    ext <;> simp
  | .cloud F p, _ => exact pcShow_none F p

/-- The index of a point: the recorded one, the place in the cloud if none is recorded. -/
def GidAt {K : Type} (c : PCloud (V3 K)) (i : Nat) (g : Int) : Prop :=
  (c.inds = none ∧ g = i) ∨ ∃ inds, c.inds = some inds ∧ inds[i]? = some g

/-- The cloud records an index for every point, or none at all. -/
def IndsOK {K : Type} (c : PCloud (V3 K)) : Prop := ∀ inds, c.inds = some inds → inds.length = c.arr.length

theorem foundAt_spec {K : Type} {c : PCloud (V3 K)} (hc : IndsOK c) {i : Nat} (hi : i < c.arr.length) :
    ∃ f, foundAt c i = some f ∧ c.arr[i]? = some f.x ∧ f.id = i ∧ GidAt c i f.gid := by
  obtain ⟨x, hx⟩ : ∃ x, c.arr[i]? = some x := ⟨_, List.getElem?_eq_getElem hi⟩
  rcases hn : c.inds with _ | inds
  · exact ⟨⟨x, i, i⟩, by simp [foundAt, hx, hn], hx, rfl, .inl ⟨hn, rfl⟩⟩
  · obtain ⟨g, hg⟩ : ∃ g, inds[i]? = some g := ⟨_, List.getElem?_eq_getElem (by rw [hc inds hn]; exact hi)⟩
    exact ⟨⟨x, i, g⟩, by simp [foundAt, hx, hn, hg], hx, rfl, .inr ⟨inds, hn, hg⟩⟩

/-- **C88** (closest, partial: targets without a shifted frame): the point found is a point of the cloud, no point of the cloud is nearer
to the target in space, the ones before it are further away, and it carries its place and its index. -/
theorem C88_closest_partial (F : CFrame ℝ) (c : PCloud (V3 ℝ)) (hne : c.arr ≠ []) (hc : IndsOK c) (t : Target ℝ) (ht : t.Centred) :
    ∃ f, pcClosest F c t = some f ∧ c.arr[f.id]? = some f.x ∧ GidAt c f.id f.gid ∧
      (∀ r ∈ c.arr, dist3 (F.place f.x) t.place ≤ dist3 (F.place r) t.place) ∧
      ∀ (k : Nat) (r : V3 ℝ), k < f.id → c.arr[k]? = some r → dist3 (F.place f.x) t.place < dist3 (F.place r) t.place := by
  obtain ⟨i, q, h1, h2, h3, h4⟩ := C32_closest (coords := c.arr.map (pcShow F none)) (by simpa using hne) t.show
  rw [List.getElem?_map] at h2
  obtain ⟨x, hx, rfl⟩ := Option.map_eq_some_iff.1 h2
  obtain ⟨f, e, hf, rfl, hg⟩ := foundAt_spec hc (List.getElem?_eq_some_iff.1 hx).1
  rw [hf, Option.some.injEq] at hx
  subst hx
  rw [Target.show_eq t ht] at h3 h4
  simp only [pcShow_none] at h3 h4
  refine ⟨f, by rw [pcClosest, pcIndexOfClosest, h1]; exact e, hf, hg, ?_, ?_⟩
  · intro r hr
    exact h3 _ (List.mem_map.2 ⟨r, hr, pcShow_none F r⟩)
  · intro k r hk hr
    exact h4 k _ hk (by rw [List.getElem?_map, hr, Option.map_some, pcShow_none])

/-- **C88** (furthest, partial: targets without a shifted frame). -/
theorem C88_furthest_partial (F : CFrame ℝ) (c : PCloud (V3 ℝ)) (hne : c.arr ≠ []) (hc : IndsOK c) (t : Target ℝ) (ht : t.Centred) :
    ∃ f, pcFurthest F c t = some f ∧ c.arr[f.id]? = some f.x ∧ GidAt c f.id f.gid ∧
      ∀ r ∈ c.arr, dist3 (F.place r) t.place ≤ dist3 (F.place f.x) t.place := by
  obtain ⟨i, h1, ⟨q, h2, h3⟩⟩ := C32_furthest (coords := c.arr.map (pcShow F none)) (by simpa using hne) t.show
  rw [List.getElem?_map] at h2
  obtain ⟨x, hx, rfl⟩ := Option.map_eq_some_iff.1 h2
  obtain ⟨f, e, hf, rfl, hg⟩ := foundAt_spec hc (List.getElem?_eq_some_iff.1 hx).1
  rw [hf, Option.some.injEq] at hx
  subst hx
  rw [Target.show_eq t ht] at h3
  simp only [pcShow_none] at h3
  refine ⟨f, by rw [pcFurthest, pcIndexOfFurthest, h1]; exact e, hf, hg, ?_⟩
  intro r hr
  exact h3 _ (List.mem_map.2 ⟨r, hr, pcShow_none F r⟩)

theorem foundMany_spec {c : PCloud (V3 ℝ)} (hc : IndsOK c) {ids : List Nat} (hi : ∀ i ∈ ids, i < c.arr.length) :
    ∃ d, foundMany c ids = some d ∧ d.arr.length = ids.length ∧ d.inds = some (ids.map Int.ofNat) ∧
      ∀ k i : Nat, ids[k]? = some i → d.arr[k]? = c.arr[i]? := by
  have hg : ∀ {α : Type} (a : List α), a.length = c.arr.length → ∃ r, gather? a ids = some r ∧ r.length = ids.length ∧
      ∀ k i : Nat, ids[k]? = some i → r[k]? = a[i]? := by
    intro α a ha
    obtain ⟨r, h1, h2, h3⟩ := mapM_exists (l := ids) (f := fun i => a[i]?) (P := fun _ i y => a[i]? = some y) (by
      intro k i hk
      have := hi i (List.mem_of_getElem? hk)
      exact ⟨a[i]'(by omega), List.getElem?_eq_getElem _, List.getElem?_eq_getElem _⟩)
    refine ⟨r, h1, h2, ?_⟩
    intro k i hk
    have hk' : k < r.length := by rw [h2]; exact (List.getElem?_eq_some_iff.1 hk).1
    rw [h3 k i _ hk (List.getElem?_eq_getElem hk'), List.getElem?_eq_getElem hk']
  obtain ⟨a, h1, h2, h3⟩ := hg c.arr rfl
  rcases hn : c.inds with _ | inds
  · exact ⟨⟨a, some (ids.map Int.ofNat)⟩, by simp [foundMany, h1, hn], h2, rfl, h3⟩
  · obtain ⟨b, h4, -, -⟩ := hg inds (hc inds hn)
    exact ⟨⟨a, some (ids.map Int.ofNat)⟩, by simp [foundMany, h1, hn, h4], h2, rfl, h3⟩

/-- **C88** (several targets, partial: the points and their places in the cloud, not the recorded indices). -/
theorem C88_many_partial (F : CFrame ℝ) (c : PCloud (V3 ℝ)) (hne : c.arr ≠ []) (hc : IndsOK c)
    (query : List (V3 ℝ) → V3 ℝ → Option Nat) (hq : ∀ cloud p, cloud ≠ [] → ∃ i, query cloud p = some i ∧ IsNearest cloud p i)
    (ts : List (Target ℝ)) (ht : ∀ t ∈ ts, t.Centred) :
    (∃ d inds, pcClosestMany query F c ts = some d ∧ d.inds = some inds ∧ d.arr.length = ts.length ∧ inds.length = ts.length ∧
      ∀ (k : Nat) (t : Target ℝ), ts[k]? = some t → ∃ (i : Nat) (x : V3 ℝ), inds[k]? = some (i : Int) ∧ c.arr[i]? = some x ∧ d.arr[k]? = some x ∧
        ∀ r ∈ c.arr, dist3 (F.place x) t.place ≤ dist3 (F.place r) t.place) ∧
    ∃ d inds, pcFurthestMany F c ts = some d ∧ d.inds = some inds ∧ d.arr.length = ts.length ∧ inds.length = ts.length ∧
      ∀ (k : Nat) (t : Target ℝ), ts[k]? = some t → ∃ (i : Nat) (x : V3 ℝ), inds[k]? = some (i : Int) ∧ c.arr[i]? = some x ∧ d.arr[k]? = some x ∧
        ∀ r ∈ c.arr, dist3 (F.place r) t.place ≤ dist3 (F.place x) t.place := by
  have hne' : c.arr.map (pcShow F none) ≠ [] := by simpa using hne
  have hshow : ∀ (k : Nat) (t : Target ℝ), ts[k]? = some t → (ts.map Target.show)[k]? = some t.place := by
    intro k t hk
    rw [List.getElem?_map, hk, Option.map_some, Target.show_eq t (ht t (List.mem_of_getElem? hk))]
  have hmem : ∀ {R : List Nat} {i : Nat}, i ∈ R → R.length = (ts.map Target.show).length →
      ∃ (k : Nat) (t : Target ℝ), R[k]? = some i ∧ ts[k]? = some t := by
    intro R i hi hl
    obtain ⟨k, hk, rfl⟩ := List.mem_iff_getElem.1 hi
    exact ⟨k, ts[k]'(by simpa [hl] using hk), List.getElem?_eq_getElem hk, List.getElem?_eq_getElem _⟩
  constructor
  · obtain ⟨R, h1, h2, h3⟩ := C32_closest_many hq (targets := ts.map Target.show) hne'
    have hlt : ∀ i ∈ R, i < c.arr.length := by
      intro i hi
      obtain ⟨k, t, hk, hkt⟩ := hmem hi h2
      obtain ⟨q, hq, -⟩ := (h3 k _ i (hshow k t hkt) hk).ex
      simpa using (List.getElem?_eq_some_iff.1 hq).1
    obtain ⟨d, e, hl, hi, hd⟩ := foundMany_spec hc hlt
    refine ⟨d, _, by rw [pcClosestMany, h1]; exact e, hi, by rw [hl, h2, List.length_map], by rw [List.length_map, h2, List.length_map], ?_⟩
    intro k t hk
    have hkR : k < R.length := by rw [h2, List.length_map]; exact (List.getElem?_eq_some_iff.1 hk).1
    obtain ⟨q, hq, hmin⟩ := (h3 k _ _ (hshow k t hk) (List.getElem?_eq_getElem hkR)).ex
    rw [List.getElem?_map] at hq
    obtain ⟨x, hx, rfl⟩ := Option.map_eq_some_iff.1 hq
    refine ⟨R[k], x, by rw [List.getElem?_map, List.getElem?_eq_getElem hkR]; rfl, hx, by rw [hd k _ (List.getElem?_eq_getElem hkR), hx], ?_⟩
    intro r hr
    have := hmin _ (List.mem_map.2 ⟨r, hr, rfl⟩)
    rwa [pcShow_none, pcShow_none] at this
  · obtain ⟨R, h1, h2, h3⟩ := C32_furthest_many (targets := ts.map Target.show) hne'
    have hlt : ∀ i ∈ R, i < c.arr.length := by
      intro i hi
      obtain ⟨k, t, hk, hkt⟩ := hmem hi h2
      obtain ⟨q, hq, -⟩ := (h3 k _ i (hshow k t hkt) hk).ex
      simpa using (List.getElem?_eq_some_iff.1 hq).1
    obtain ⟨d, e, hl, hi, hd⟩ := foundMany_spec hc hlt
    refine ⟨d, _, by rw [pcFurthestMany, h1]; exact e, hi, by rw [hl, h2, List.length_map], by rw [List.length_map, h2, List.length_map], ?_⟩
    intro k t hk
    have hkR : k < R.length := by rw [h2, List.length_map]; exact (List.getElem?_eq_some_iff.1 hk).1
    obtain ⟨q, hq, hmin⟩ := (h3 k _ _ (hshow k t hk) (List.getElem?_eq_getElem hkR)).ex
    rw [List.getElem?_map] at hq
    obtain ⟨x, hx, rfl⟩ := Option.map_eq_some_iff.1 hq
    refine ⟨R[k], x, by rw [List.getElem?_map, List.getElem?_eq_getElem hkR]; rfl, hx, by rw [hd k _ (List.getElem?_eq_getElem hkR), hx], ?_⟩
    intro r hr
    have := hmin _ (List.mem_map.2 ⟨r, hr, rfl⟩)
    rwa [pcShow_none, pcShow_none] at this

/-- The standard frame with another origin. -/
noncomputable def shiftedFrame (o : V3 ℝ) : CFrame ℝ := ⟨⟨1, 0, 0⟩, ⟨0, 1, 0⟩, ⟨0, 0, 1⟩, o⟩

theorem shiftedFrame_place (o p : V3 ℝ) : (shiftedFrame o).place p = o + p := by
  ext <;> simp [shiftedFrame, CFrame.place]

/-- Cases of the hypotheses: a target in a cloud with a shifted frame. -/
example : (Target.cloud (shiftedFrame ⟨10, 0, 0⟩) ⟨0, 0, 0⟩).Centred ∧ (Target.numbers (⟨1, 2, 3⟩ : V3 ℝ) none).Centred ∧
    IndsOK (⟨[⟨0, 0, 0⟩, ⟨10, 0, 0⟩], some [7, 9]⟩ : PCloud (V3 ℝ)) := by
  refine ⟨trivial, trivial, ?_⟩
  rintro inds ⟨⟩
  rfl

/-- **C88** is false for numbers given in a frame with another origin: the origin of a frame at the second point is nearest to the second
point, but the first one is found. -/
theorem C88_origin_false : ∃ f, pcClosest (shiftedFrame 0) ⟨[⟨0, 0, 0⟩, ⟨10, 0, 0⟩], none⟩ (.numbers ⟨0, 0, 0⟩ (some (shiftedFrame ⟨10, 0, 0⟩))) = some f ∧
    f.id = 0 ∧ dist3 ((shiftedFrame 0).place ⟨10, 0, 0⟩) ((shiftedFrame ⟨10, 0, 0⟩).place ⟨0, 0, 0⟩) <
      dist3 ((shiftedFrame 0).place f.x) ((shiftedFrame ⟨10, 0, 0⟩).place ⟨0, 0, 0⟩) := by
  have hs : (Target.numbers ⟨0, 0, 0⟩ (some (shiftedFrame ⟨10, 0, 0⟩))).show = (Target.numbers (⟨0, 0, 0⟩ : V3 ℝ) none).show := by
    ext <;> simp [Target.show, vecShow, CFrame.vecAmb]
  obtain ⟨f, h1, h2, -, h3, -⟩ := C88_closest_partial (shiftedFrame 0) ⟨[⟨0, 0, 0⟩, ⟨10, 0, 0⟩], none⟩ (by simp) (by rintro _ ⟨⟩)
    (.numbers ⟨0, 0, 0⟩ none) trivial
  have hid : f.id = 0 := by
    have hlt : f.id < 2 := (List.getElem?_eq_some_iff.1 h2).1
    by_contra hne
    have h1' : f.id = 1 := by omega
    rw [h1'] at h2
    simp only [List.getElem?_cons_succ, List.getElem?_cons_zero, Option.some.injEq] at h2
    have := h3 ⟨0, 0, 0⟩ (by simp)
    rw [← h2] at this
    simp only [Target.place, dist3, shiftedFrame_place, V3.add_x, V3.add_y, V3.add_z, V3.zero_x, V3.zero_y, V3.zero_z] at this
    rw [Real.sqrt_le_sqrt_iff (by norm_num)] at this
    norm_num at this
  have hx : f.x = ⟨0, 0, 0⟩ := by
    rw [hid] at h2
    simpa using h2.symm
  refine ⟨f, by rw [← h1, pcClosest, pcClosest, pcIndexOfClosest, pcIndexOfClosest, hs], hid, ?_⟩
  rw [hx]
  simp only [dist3, shiftedFrame_place, V3.add_x, V3.add_y, V3.add_z, V3.zero_x, V3.zero_y, V3.zero_z]
  apply Real.sqrt_lt_sqrt <;> norm_num

/-- **C88** is false for the place of the point that is returned: seen from ambient space it is where the point of the cloud is only if the
frame of the cloud has the origin of ambient space. -/
theorem C88_place_false {K : Type} [Field K] (F : CFrame K) (x : V3 K) : pointShow F none x = F.place x ↔ F.origo = 0 := by
  rw [vecShow_place, pointShow]
  constructor
  · intro h
    have hx := congrArg V3.x h
    have hy := congrArg V3.y h
    have hz := congrArg V3.z h
    simp only [V3.add_x, V3.add_y, V3.add_z] at hx hy hz
    ext
    · exact left_eq_add.1 (hx.trans (add_comm _ _))
    · exact left_eq_add.1 (hy.trans (add_comm _ _))
    · exact left_eq_add.1 (hz.trans (add_comm _ _))
  · intro h
    rw [h]
    ext <;> simp

/-- **C88** is false for the recorded indices of several points: the result records places in the cloud. -/
theorem C88_inds_false (F : CFrame ℝ) (x : V3 ℝ) (t : Target ℝ) :
    pcFurthestMany F ⟨[x], some [7]⟩ [t] = some ⟨[x], some [0]⟩ ∧ pcFurthest F ⟨[x], some [7]⟩ t = some ⟨x, 0, 7⟩ := ⟨rfl, rfl⟩

end PM
