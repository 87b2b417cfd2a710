import Verif.PropsPlate

/-!
# C62: what is made of ribs that are wider than the plate or apart from it
-/

namespace PM

section
variable {K : Type} [Field K] [LinearOrder K] [IsStrictOrderedRing K]

/-- The extent across a rib: that of the plate or the width of the rib, whichever is larger. -/
def wideBy (L : K) : Option (K × K × K) → K
  | some r => max L r.1
  | none => L

omit [Field K] [IsStrictOrderedRing K] in
theorem wideBy_ge (L : K) (r : Option (K × K × K)) : L ≤ wideBy L r := by
  cases r with
  | none => exact le_refl _
  | some r => exact le_max_left _ _

theorem aBins_wide {L : K} {r : Option (K × K × K)} {b : List K} (hL : 0 < L)
    (hr : ∀ w h e, r = some (w, h, e) → 0 < w) (h1 : ∀ v ∈ [-L / 2, 0, L / 2] ++ ribAcross r, v ∈ b)
    (h2 : b.Pairwise (· < ·))
    (h3 : ∀ y ∈ b, ∃ lo ∈ [-L / 2, 0, L / 2] ++ ribAcross r, ∃ hi ∈ [-L / 2, 0, L / 2] ++ ribAcross r, lo ≤ y ∧ y ≤ hi) :
    ABins (wideBy L r) b r := by
  have hpos : 0 < wideBy L r := hL.trans_le (wideBy_ge L r)
  have key : ∀ v ∈ [-L / 2, 0, L / 2] ++ ribAcross r, -(wideBy L r / 2) ≤ v ∧ v ≤ wideBy L r / 2 := by
    intro v hv
    have hge := wideBy_ge L r
    rcases List.mem_append.1 hv with hv | hv
    · simp only [List.mem_cons, List.not_mem_nil, or_false] at hv
      rcases hv with rfl | rfl | rfl <;> constructor <;> linarith
    · cases r with
      | none => simp [ribAcross] at hv
      | some r =>
        obtain ⟨w, h, e⟩ := r
        have : w ≤ wideBy L (some (w, h, e)) := le_max_right _ _
        have hw := hr w h e rfl
        simp only [ribAcross, List.mem_cons, List.not_mem_nil, or_false] at hv
        rcases hv with rfl | rfl <;> constructor <;> linarith
  have ends : -wideBy L r / 2 ∈ b ∧ wideBy L r / 2 ∈ b := by
    cases r with
    | none => exact ⟨h1 _ (by simp [wideBy]), h1 _ (by simp [wideBy])⟩
    | some r =>
      rcases max_choice L r.1 with h | h
      · simp only [wideBy, h]; exact ⟨h1 _ (by simp), h1 _ (by simp)⟩
      · simp only [wideBy, h]; exact ⟨h1 _ (by simp [ribAcross]), h1 _ (by simp [ribAcross])⟩
  refine ⟨h2, ends.1, ends.2, ?_, fun v hv => h1 v (List.mem_append_right _ hv)⟩
  intro v hv
  obtain ⟨lo, hlo, hi, hhi, q1, q2⟩ := h3 v hv
  exact abs_le.2 ⟨(key lo hlo).1.trans q1, q2.trans (key hi hhi).2⟩

variable [FloorRing K]

/-- The requirements without a bound on the width. -/
structure WidePlate (lx ly t : K) (rx ry : Option (K × K × K)) : Prop where
  posx : 0 < lx
  posy : 0 < ly
  post : 0 < t
  wx : ∀ w h e, rx = some (w, h, e) → 0 < w
  wy : ∀ w h e, ry = some (w, h, e) → 0 < w
  tx : Touches t rx
  ty : Touches t ry

theorem wide_bins {lx ly t : K} {rx ry : Option (K × K × K)} (h : WidePlate lx ly t rx ry) {l : LMax K} (hl : LMaxOK l) :
    ∃ bx bY bz, plateBins (plateRaw lx ly t rx ry).1 l = some bx ∧ plateBins (plateRaw lx ly t rx ry).2.1 l = some bY ∧
      plateBins (plateRaw lx ly t rx ry).2.2 l = some bz ∧ PlateBins (wideBy lx ry) (wideBy ly rx) t rx ry bx bY bz ∧
      (2 ≤ bx.length ∧ 2 ≤ bY.length ∧ 2 ≤ bz.length) ∧
      ∀ x, l = .float x → ∀ a b, Gap bx a b ∨ Gap bY a b ∨ Gap bz a b → b - a ≤ x := by
  obtain ⟨bx, x1, x2, x3, x4, x5⟩ := plateBins_ok hl (bins := (plateRaw lx ly t rx ry).1) (by simp [plateRaw])
  obtain ⟨bY, y1, y2, y3, y4, y5⟩ := plateBins_ok hl (bins := (plateRaw lx ly t rx ry).2.1) (by simp [plateRaw])
  obtain ⟨bz, z1, z2, z3, z4, z5⟩ := plateBins_ok hl (bins := (plateRaw lx ly t rx ry).2.2) (by simp [plateRaw])
  have hx := aBins_wide h.posx h.wy x2 x3 x4
  have hy := aBins_wide h.posy h.wx y2 y3 y4
  have b1 : -t / 2 ∈ bz := z2 _ (by simp [plateRaw])
  have b2 : t / 2 ∈ bz := z2 _ (by simp [plateRaw])
  have p1 := h.posx.trans_le (wideBy_ge lx ry); have p2 := h.posy.trans_le (wideBy_ge ly rx); have p3 := h.post
  refine ⟨bx, bY, bz, x1, y1, z1, ⟨hx, hy, ⟨z3, b1, b2, fun v hv => z2 v ?_⟩, ⟨z3, b1, b2, fun v hv => z2 v ?_⟩, p1, p2, p3,
    h.wx, h.wy, h.tx, h.ty⟩, ⟨two_le_of_mem hx.bot hx.top (by linarith), two_le_of_mem hy.bot hy.top (by linarith),
      two_le_of_mem b1 b2 (by linarith)⟩, ?_⟩
  · simp only [plateRaw, List.mem_append]; exact Or.inl (Or.inr hv)
  · simp only [plateRaw, List.mem_append]; exact Or.inr hv
  · intro x hx a b g
    rcases g with g | g | g
    · exact x5 x hx a b g
    · exact y5 x hx a b g
    · exact z5 x hx a b g

/-- **C62** ribs of any width that touch the plate: plate and ribs of the other direction are as wide as the widest of both. -/
theorem C62_wide {lx ly t : K} {ax ay : RibArgs K} {rx ry : Option (K × K × K)} (hx : IsRibs ax rx) (hy : IsRibs ay ry)
    (h : WidePlate lx ly t rx ry) {l : LMax K} (hl : LMaxOK l) {order : Nat} (ho : order = 1 ∨ order = 2) :
    ∃ C T, ribbedPlate lx ly t ax ay l order false = some (C, T) ∧
      BoxMesh (lcHex order) C T (RibbedPlate (wideBy lx ry) (wideBy ly rx) t rx ry) ∧
      ∀ x, l = .float x → ∀ r ∈ T, ∀ lo hi, RowBox (lcHex order) C r lo hi →
        hi.x - lo.x ≤ x ∧ hi.y - lo.y ≤ x ∧ hi.z - lo.z ≤ x := by
  obtain rfl := hx.get
  obtain rfl := hy.get
  obtain ⟨bx, bY, bz, e1, e2, e3, hb, hlen, hmax⟩ := wide_bins h hl
  obtain ⟨C, T, e4, g⟩ := plate_grid ho hlen hb.x.sorted hb.y.sorted hb.zx.sorted
  have e5 := g.centers
  have pm := preMesh (hexMaster_of order) hb g
  rw [← maskRows_map] at pm
  obtain ⟨c, tt, e6, bm, og'⟩ := pm.1.detached pm.2
  refine ⟨c, tt, ?_, bm, ?_⟩
  · simp only [ribbedPlate, e1, e2, e3, e4, e5, plateTets, Option.bind_eq_bind, Option.bind_some, Bool.false_eq_true,
      if_false, e6]
  · intro x hx r hr lo hi hb
    obtain ⟨g1, g2, g3⟩ := og' r hr lo hi hb
    exact ⟨hmax x hx _ _ (Or.inl g1), hmax x hx _ _ (Or.inr (Or.inl g2)), hmax x hx _ _ (Or.inr (Or.inr g3))⟩

omit [IsStrictOrderedRing K] [FloorRing K] in
theorem BoxMesh.congr {lc : List (V3 Int)} {C : List (List K)} {T : Topo} {S S' : V3 K → Prop} (h : BoxMesh lc C T S) :
    BoxMesh lc C T S' ↔ ∀ p, S p ↔ S' p := by
  constructor
  · intro h' p
    rw [h.cover p, h'.cover p]
  · intro hS
    exact ⟨h.box, fun p => (hS p).symm.trans (h.cover p), h.disjoint, h.distinct, h.used⟩

/-- **C62** with ribs in one direction that touch the plate, exactly plate and ribs are made if and only if the ribs are not wider than the plate or
run through its whole thickness. -/
theorem C62_wide_exact {lx ly t w h e : K} {ax ay : RibArgs K} (hx : IsRibs ax (some (w, h, e))) (hy : IsRibs ay none)
    (hW : WidePlate lx ly t (some (w, h, e)) none) {l : LMax K} (hl : LMaxOK l) {order : Nat} (ho : order = 1 ∨ order = 2) :
    ∃ C T, ribbedPlate lx ly t ax ay l order false = some (C, T) ∧
      (BoxMesh (lcHex order) C T (RibbedPlate lx ly t (some (w, h, e)) none) ↔ w ≤ ly ∨ (e - h / 2 ≤ -t / 2 ∧ t / 2 ≤ e + h / 2)) := by
  obtain ⟨C, T, h1, h2, -⟩ := C62_wide hx hy hW hl ho
  refine ⟨C, T, h1, ?_⟩
  rw [h2.congr]
  have hpx := hW.posx
  have hpy := hW.posy
  have hpt := hW.post
  have hw := hW.wx w h e rfl
  constructor
  · intro hS
    by_contra hno
    push Not at hno
    obtain ⟨n1, n2⟩ := hno
    have hmax : wideBy ly (some (w, h, e)) = w := max_eq_right n1.le
    have bad : ∀ z, |z| ≤ t / 2 → |z - e| ≤ h / 2 := by
      intro z hz
      have := (hS ⟨0, w / 2, z⟩).1 (Or.inl ⟨by simp [wideBy]; linarith, by rw [hmax, abs_of_pos (by linarith)], hz⟩)
      rcases this with ⟨-, q, -⟩ | ⟨w', h', e', hq, -, -, q⟩ | ⟨w', h', e', hq, -⟩
      · simp only [abs_of_pos (show (0 : K) < w / 2 by linarith)] at q
        linarith
      · simp only [Option.some.injEq, Prod.mk.injEq] at hq
        obtain ⟨rfl, rfl, rfl⟩ := hq
        exact q
      · cases hq
    have b1 := abs_le.1 (bad (-t / 2) (by rw [abs_le]; constructor <;> linarith))
    have b2 := abs_le.1 (bad (t / 2) (by rw [abs_le]; constructor <;> linarith))
    exact absurd (n2 (by linarith)) (by linarith)
  · rintro (hle | ⟨q1, q2⟩) p
    · simp only [wideBy, max_eq_left hle]
    · unfold RibbedPlate
      simp only [wideBy]
      have e1 : ∀ z : K, |z| ≤ t / 2 → |z - e| ≤ h / 2 := by
        intro z hz
        obtain ⟨z1, z2⟩ := abs_le.1 hz
        exact abs_le.2 ⟨by linarith, by linarith⟩
      constructor
      · rintro (⟨a1, a2, a3⟩ | a | ⟨_, _, _, hq, _⟩)
        · rcases le_total w ly with hle | hle
          · rw [max_eq_left hle] at a2
            exact Or.inl ⟨a1, a2, a3⟩
          · rw [max_eq_right hle] at a2
            exact Or.inr (Or.inl ⟨w, h, e, rfl, a1, a2, e1 _ a3⟩)
        · exact Or.inr (Or.inl a)
        · cases hq
      · rintro (⟨a1, a2, a3⟩ | a | ⟨_, _, _, hq, _⟩)
        · exact Or.inl ⟨a1, a2.trans (by have := le_max_left ly w; linarith), a3⟩
        · exact Or.inr (Or.inl a)
        · cases hq

/-- What the code makes of a rib: the gap between rib and plate is filled, unless it is as high as the rib or higher — then the rib is left out. -/
def filledRib (t w h e : K) : Option (K × K × K) :=
  if t / 2 < e - h / 2 then
    (if e - h / 2 - t / 2 < h then some (w, h + (e - h / 2 - t / 2), e - (e - h / 2 - t / 2) / 2) else none)
  else if e + h / 2 < -t / 2 then
    (if -t / 2 - (e + h / 2) < h then some (w, h + (-t / 2 - (e + h / 2)), e + (-t / 2 - (e + h / 2)) / 2) else none)
  else some (w, h, e)

omit [IsStrictOrderedRing K] [FloorRing K] in
theorem ABins.none {L : K} {b : List K} {r : Option (K × K × K)} (h : ABins L b r) : ABins L b none :=
  ⟨h.sorted, h.bot, h.top, h.within, by simp [ribAcross]⟩

omit [FloorRing K] in
/-- The boxes that are kept. -/
theorem kept_filled {t w h e : K} (ht : 0 < t) (hh : 0 < h) {bz : List K} (hs : bz.Pairwise (· < ·))
    (hz : ∀ v, v ∈ bz ↔ v ∈ [-t / 2, 0, t / 2] ++ ribThrough t (some (w, h, e)) ++ ribThrough t none) :
    ZBins t bz (filledRib t w h e) ∧ Touches t (filledRib t w h e) ∧
      (∀ w' h' e', filledRib t w h e = some (w', h', e') → w' = w) ∧
      ∀ lo hi : V3 K, Gap bz lo.z hi.z → (Kept t (some (w, h, e)) none lo hi ↔ Kept t (filledRib t w h e) none lo hi) := by
  have m1 : -t / 2 ∈ bz := (hz _).2 (by simp)
  have m2 : t / 2 ∈ bz := (hz _).2 (by simp)
  have conv : ∀ v ∈ bz, v = -t / 2 ∨ v = 0 ∨ v = t / 2 ∨ (e - h / 2 < -t / 2 ∧ v = e - h / 2) ∨ (t / 2 < e + h / 2 ∧ v = e + h / 2) := by
    intro v hv
    have := (hz v).1 hv
    simp only [ribThrough, List.append_nil, List.mem_append, List.mem_cons, List.not_mem_nil, or_false] at this
    rcases this with (rfl | rfl | rfl) | q | q
    · exact Or.inl rfl
    · exact Or.inr (Or.inl rfl)
    · exact Or.inr (Or.inr (Or.inl rfl))
    · split at q
      · rename_i hc; exact Or.inr (Or.inr (Or.inr (Or.inl ⟨hc, by simpa using q⟩)))
      · cases q
    · split at q
      · rename_i hc; exact Or.inr (Or.inr (Or.inr (Or.inr ⟨hc, by simpa using q⟩)))
      · cases q
  have inn : ∀ v ∈ ribThrough t (some (w, h, e)), v ∈ bz := fun v hv => (hz v).2 (by simp [hv])
  unfold filledRib
  split_ifs with c1 c2 c3 c4
  · -- above, filled
    have mE : e + h / 2 ∈ bz := inn _ (by simp only [ribThrough, List.mem_append]; right; rw [if_pos (by linarith)]; simp)
    refine ⟨⟨hs, m1, m2, ?_⟩, ?_, ?_, ?_⟩
    · intro v hv
      simp only [ribThrough, List.mem_append] at hv
      rw [if_neg (by linarith), if_pos (by linarith)] at hv
      simp only [List.not_mem_nil, List.mem_singleton, false_or] at hv
      rw [hv]
      convert mE using 1
      ring
    · rintro w' h' e' hq
      simp only [Option.some.injEq, Prod.mk.injEq] at hq
      obtain ⟨rfl, rfl, rfl⟩ := hq
      constructor <;> linarith
    · rintro w' h' e' hq
      simp only [Option.some.injEq, Prod.mk.injEq] at hq
      exact hq.1.symm
    · intro lo hi g
      rw [kept_iff, kept_iff]
      have s1 := g.side hs m1
      have s2 := g.side hs m2
      have s3 := g.side hs mE
      have glt := g.lt hs
      have cl := conv _ g.mem.1
      have cu := conv _ g.mem.2
      by_cases hin : hi.z ≤ t / 2
      · have : -t / 2 ≤ lo.z := by
          rcases cl with q | q | q | ⟨q, -⟩ | ⟨-, q⟩
          · exact q.ge
          · rw [q]; linarith
          · rw [q]; linarith
          · linarith
          · rw [q]; linarith
        have hk : -t / 2 < (lo.z + hi.z) / 2 ∧ (lo.z + hi.z) / 2 < t / 2 := ⟨by linarith, by linarith⟩
        exact iff_of_true (Or.inl hk) (Or.inl hk)
      · have l2 : t / 2 ≤ lo.z := s2.resolve_left hin
        have u2 : hi.z = e + h / 2 := by
          rcases cu with q | q | q | ⟨q, -⟩ | ⟨-, q⟩
          · exact absurd (by rw [q]; linarith) hin
          · exact absurd (by rw [q]; linarith) hin
          · exact absurd q.le hin
          · linarith
          · exact q
        have l3 : lo.z = t / 2 := by
          rcases cl with q | q | q | ⟨q, -⟩ | ⟨-, q⟩
          · linarith
          · linarith
          · exact q
          · linarith
          · linarith
        apply or_congr Iff.rfl
        apply or_congr _ Iff.rfl
        constructor
        · rintro ⟨w', h', e', hq, a, -⟩
          simp only [Option.some.injEq, Prod.mk.injEq] at hq
          obtain ⟨rfl, rfl, rfl⟩ := hq
          exact ⟨_, _, _, rfl, a, by rw [l3, u2]; linarith, by rw [l3, u2]; linarith⟩
        · rintro ⟨w', h', e', hq, a, -⟩
          simp only [Option.some.injEq, Prod.mk.injEq] at hq
          obtain ⟨rfl, rfl, rfl⟩ := hq
          exact ⟨_, _, _, rfl, a, by rw [l3, u2]; linarith, by rw [l3, u2]; linarith⟩
  · -- above, left out
    have mE : e + h / 2 ∈ bz := inn _ (by simp only [ribThrough, List.mem_append]; right; rw [if_pos (by linarith)]; simp)
    refine ⟨⟨hs, m1, m2, by simp [ribThrough]⟩, ?_, ?_, ?_⟩
    · rintro w' h' e' hq; cases hq
    · rintro w' h' e' hq; cases hq
    · intro lo hi g
      rw [kept_iff, kept_iff]
      have s1 := g.side hs m1
      have s2 := g.side hs m2
      have s3 := g.side hs mE
      have glt := g.lt hs
      have cl := conv _ g.mem.1
      have cu := conv _ g.mem.2
      apply or_congr Iff.rfl
      apply or_congr _ Iff.rfl
      refine iff_of_false ?_ (by rintro ⟨_, _, _, hq, -⟩; cases hq)
      rintro ⟨w', h', e', hq, -, b1, b2⟩
      simp only [Option.some.injEq, Prod.mk.injEq] at hq
      obtain ⟨rfl, rfl, rfl⟩ := hq
      push Not at c2
      rcases cu with q | q | q | ⟨q, -⟩ | ⟨-, q⟩
      · linarith
      · linarith
      · linarith
      · linarith
      · rcases cl with r | r | r | ⟨r, -⟩ | ⟨-, r⟩ <;> linarith
  · -- below, filled
    have mE : e - h / 2 ∈ bz := inn _ (by simp only [ribThrough, List.mem_append]; left; rw [if_pos (by linarith)]; simp)
    refine ⟨⟨hs, m1, m2, ?_⟩, ?_, ?_, ?_⟩
    · intro v hv
      simp only [ribThrough, List.mem_append] at hv
      rw [if_pos (by linarith), if_neg (by linarith)] at hv
      simp only [List.not_mem_nil, List.mem_singleton, or_false] at hv
      rw [hv]
      convert mE using 1
      ring
    · rintro w' h' e' hq
      simp only [Option.some.injEq, Prod.mk.injEq] at hq
      obtain ⟨rfl, rfl, rfl⟩ := hq
      constructor <;> linarith
    · rintro w' h' e' hq
      simp only [Option.some.injEq, Prod.mk.injEq] at hq
      exact hq.1.symm
    · intro lo hi g
      rw [kept_iff, kept_iff]
      have s1 := g.side hs m1
      have s2 := g.side hs m2
      have s3 := g.side hs mE
      have glt := g.lt hs
      have cl := conv _ g.mem.1
      have cu := conv _ g.mem.2
      by_cases hin : -t / 2 ≤ lo.z
      · have : hi.z ≤ t / 2 := by
          rcases cu with q | q | q | ⟨-, q⟩ | ⟨q, -⟩
          · rw [q]; linarith
          · rw [q]; linarith
          · exact q.le
          · rw [q]; linarith
          · linarith
        have hk : -t / 2 < (lo.z + hi.z) / 2 ∧ (lo.z + hi.z) / 2 < t / 2 := ⟨by linarith, by linarith⟩
        exact iff_of_true (Or.inl hk) (Or.inl hk)
      · have l2 : hi.z ≤ -t / 2 := s1.resolve_right hin
        have u2 : lo.z = e - h / 2 := by
          rcases cl with q | q | q | ⟨-, q⟩ | ⟨q, -⟩
          · exact absurd q.ge hin
          · exact absurd (by rw [q]; linarith) hin
          · exact absurd (by rw [q]; linarith) hin
          · exact q
          · linarith
        have l3 : hi.z = -t / 2 := by
          rcases cu with q | q | q | ⟨-, q⟩ | ⟨q, -⟩
          · exact q
          · linarith
          · linarith
          · linarith
          · linarith
        apply or_congr Iff.rfl
        apply or_congr _ Iff.rfl
        constructor
        · rintro ⟨w', h', e', hq, a, -⟩
          simp only [Option.some.injEq, Prod.mk.injEq] at hq
          obtain ⟨rfl, rfl, rfl⟩ := hq
          exact ⟨_, _, _, rfl, a, by rw [l3, u2]; linarith, by rw [l3, u2]; linarith⟩
        · rintro ⟨w', h', e', hq, a, -⟩
          simp only [Option.some.injEq, Prod.mk.injEq] at hq
          obtain ⟨rfl, rfl, rfl⟩ := hq
          exact ⟨_, _, _, rfl, a, by rw [l3, u2]; linarith, by rw [l3, u2]; linarith⟩
  · -- below, left out
    have mE : e - h / 2 ∈ bz := inn _ (by simp only [ribThrough, List.mem_append]; left; rw [if_pos (by linarith)]; simp)
    refine ⟨⟨hs, m1, m2, by simp [ribThrough]⟩, ?_, ?_, ?_⟩
    · rintro w' h' e' hq; cases hq
    · rintro w' h' e' hq; cases hq
    · intro lo hi g
      rw [kept_iff, kept_iff]
      have s1 := g.side hs m1
      have s2 := g.side hs m2
      have s3 := g.side hs mE
      have glt := g.lt hs
      have cl := conv _ g.mem.1
      have cu := conv _ g.mem.2
      apply or_congr Iff.rfl
      apply or_congr _ Iff.rfl
      refine iff_of_false ?_ (by rintro ⟨_, _, _, hq, -⟩; cases hq)
      rintro ⟨w', h', e', hq, -, b1, b2⟩
      simp only [Option.some.injEq, Prod.mk.injEq] at hq
      obtain ⟨rfl, rfl, rfl⟩ := hq
      push Not at c4
      rcases cl with q | q | q | ⟨-, q⟩ | ⟨q, -⟩
      · linarith
      · linarith
      · linarith
      · rcases cu with r | r | r | ⟨-, r⟩ | ⟨r, -⟩ <;> linarith
      · linarith
  · -- touching
    refine ⟨⟨hs, m1, m2, inn⟩, ?_, ?_, fun _ _ _ => Iff.rfl⟩
    · rintro w' h' e' hq
      simp only [Option.some.injEq, Prod.mk.injEq] at hq
      obtain ⟨rfl, rfl, rfl⟩ := hq
      exact ⟨not_lt.1 c1, not_lt.1 c3⟩
    · rintro w' h' e' hq
      simp only [Option.some.injEq, Prod.mk.injEq] at hq
      exact hq.1.symm

/-- **C62** ribs in one direction, of any width and at any height, without a maximum size: what is made is the plate with the rib that is filled up to
the plate or left out. -/
theorem C62_apart {lx ly t w h e : K} {ax ay : RibArgs K} (hx : IsRibs ax (some (w, h, e))) (hy : IsRibs ay none)
    (hlx : 0 < lx) (hly : 0 < ly) (ht : 0 < t) (hw : 0 < w) (hh : 0 < h) {l : LMax K} (hl : ∀ x, l ≠ .float x) {order : Nat}
    (ho : order = 1 ∨ order = 2) :
    ∃ C T, ribbedPlate lx ly t ax ay l order false = some (C, T) ∧
      BoxMesh (lcHex order) C T (RibbedPlate lx (max ly w) t (filledRib t w h e) none) := by
  have hb : ∀ b : List K, plateBins b l = some (npUnique b) := by
    intro b
    cases l with
    | none => rfl
    | int n => rfl
    | float x => exact absurd rfl (hl x)
  have gx := hx.get
  have gy := hy.get
  have ok : ∀ b : List K, (∀ v ∈ b, v ∈ npUnique b) ∧ (npUnique b).Pairwise (· < ·) ∧
      (∀ y ∈ npUnique b, ∃ lo ∈ b, ∃ hi ∈ b, lo ≤ y ∧ y ≤ hi) := fun b =>
    ⟨fun v hv => mem_npUnique.2 hv, sorted_npUnique b, fun y hy => ⟨y, mem_npUnique.1 hy, y, mem_npUnique.1 hy, le_refl _, le_refl _⟩⟩
  obtain ⟨x2, x3, x4⟩ := ok (plateRaw lx ly t (some (w, h, e)) none).1
  obtain ⟨y2, y3, y4⟩ := ok (plateRaw lx ly t (some (w, h, e)) none).2.1
  obtain ⟨z2, z3, z4⟩ := ok (plateRaw lx ly t (some (w, h, e)) none).2.2
  have bX : ABins (wideBy lx none) _ none := aBins_wide hlx (fun _ _ _ q => by cases q) x2 x3 x4
  have bY : ABins (wideBy ly (some (w, h, e))) _ (some (w, h, e)) :=
    aBins_wide hly (fun _ _ _ q => by cases q; exact hw) y2 y3 y4
  obtain ⟨k1, k2, k3, k4⟩ := kept_filled (t := t) (w := w) (h := h) (e := e) ht hh z3 (fun v => mem_npUnique)
  have bY' : ABins (wideBy ly (some (w, h, e))) (npUnique (plateRaw lx ly t (some (w, h, e)) none).2.1) (filledRib t w h e) := by
    refine ⟨bY.sorted, bY.bot, bY.top, bY.within, ?_⟩
    intro v hv
    cases hf : filledRib t w h e with
    | none => rw [hf] at hv; simp [ribAcross] at hv
    | some q =>
      obtain ⟨w', h', e'⟩ := q
      have := k3 _ _ _ hf
      subst this
      rw [hf] at hv
      exact bY.rib v hv
  have hb' : PlateBins (wideBy lx none) (wideBy ly (some (w, h, e))) t (filledRib t w h e) none _ _ _ :=
    ⟨bX, bY', k1, ⟨z3, k1.bot, k1.top, by simp [ribThrough]⟩, hlx, hly.trans_le (wideBy_ge _ _), ht,
      fun w' h' e' q => by rw [k3 _ _ _ q]; exact hw, (fun _ _ _ q => by cases q), k2, (fun _ _ _ q => by cases q)⟩
  have p1 : 0 < wideBy ly (some (w, h, e)) := hly.trans_le (wideBy_ge _ _)
  have p0 : 0 < wideBy lx none := hlx
  obtain ⟨C, T, e4, g⟩ := plate_grid ho ⟨two_le_of_mem bX.bot bX.top (by linarith), two_le_of_mem bY.bot bY.top (by linarith),
    two_le_of_mem k1.bot k1.top (by linarith)⟩ hb'.x.sorted hb'.y.sorted hb'.zx.sorted
  have e5 := g.centers
  have pm := preMesh (hexMaster_of order) hb' g
  have same : (T.filter fun r => plateKeep t (some (w, h, e)) none (centerOf (rowPts C r) 3)) =
      T.filter fun r => plateKeep t (filledRib t w h e) none (centerOf (rowPts C r) 3) := by
    apply List.filter_congr
    intro r hr
    obtain ⟨lo, hi, -, -, c, hbx⟩ := g.box r hr
    rw [hbx.center (hexMaster_of order), Bool.eq_iff_iff]
    exact k4 lo hi c
  rw [← same, ← maskRows_map] at pm
  obtain ⟨c, tt, e6, bm, -⟩ := pm.1.detached pm.2
  refine ⟨c, tt, ?_, bm⟩
  simp only [ribbedPlate, gx, gy, hb, e4, e5, plateTets, Option.bind_eq_bind, Option.bind_some, Bool.false_eq_true, if_false, e6]

/-- **C62** ribs in one direction that are not wider than the plate, without a maximum size: exactly plate and ribs are made if and only if the ribs
touch the plate. -/
theorem C62_apart_exact {lx ly t w h e : K} {ax ay : RibArgs K} (hx : IsRibs ax (some (w, h, e))) (hy : IsRibs ay none)
    (hlx : 0 < lx) (hly : 0 < ly) (ht : 0 < t) (hw : 0 < w) (hwl : w ≤ ly) (hh : 0 < h) {l : LMax K} (hl : ∀ x, l ≠ .float x)
    {order : Nat} (ho : order = 1 ∨ order = 2) :
    ∃ C T, ribbedPlate lx ly t ax ay l order false = some (C, T) ∧
      (BoxMesh (lcHex order) C T (RibbedPlate lx ly t (some (w, h, e)) none) ↔ e - h / 2 ≤ t / 2 ∧ -t / 2 ≤ e + h / 2) := by
  obtain ⟨C, T, h1, h2⟩ := C62_apart hx hy hlx hly ht hw hh hl ho
  refine ⟨C, T, h1, ?_⟩
  rw [max_eq_left hwl] at h2
  rw [h2.congr]
  have out : ∀ z, ¬ |z| ≤ t / 2 → (RibbedPlate lx ly t (some (w, h, e)) none ⟨0, 0, z⟩ ↔ |z - e| ≤ h / 2) := by
    intro z hz
    constructor
    · rintro (⟨-, -, q⟩ | ⟨w', h', e', hq, -, -, q⟩ | ⟨_, _, _, hq, _⟩)
      · exact absurd q hz
      · simp only [Option.some.injEq, Prod.mk.injEq] at hq
        obtain ⟨rfl, rfl, rfl⟩ := hq
        exact q
      · cases hq
    · intro q
      exact Or.inr (Or.inl ⟨w, h, e, rfl, by simp; linarith, by simp; linarith, q⟩)
  constructor
  · intro hS
    by_contra hno
    rw [not_and_or, not_le, not_le] at hno
    rcases hno with c | c
    · by_cases g : e - h / 2 - t / 2 < h
      · -- a point in the gap
        have hz : ¬ |(e - h / 2 + t / 2) / 2| ≤ t / 2 := by rw [abs_le]; rintro ⟨-, q⟩; linarith
        have a1 := (out _ hz).1 ((hS ⟨0, 0, (e - h / 2 + t / 2) / 2⟩).1 (Or.inr (Or.inl ⟨w, _, _, by
          rw [filledRib, if_pos c, if_pos g], by simp; linarith, by simp; linarith, by rw [abs_le]; constructor <;> linarith⟩)))
        have := (abs_le.1 a1).1
        linarith
      · have hz : ¬ |e| ≤ t / 2 := by rw [abs_le]; rintro ⟨-, q⟩; linarith
        have a1 := (hS ⟨0, 0, e⟩).2 ((out e hz).2 (by simp; linarith))
        rw [filledRib, if_pos c, if_neg g] at a1
        rcases a1 with ⟨-, -, q⟩ | ⟨_, _, _, hq, _⟩ | ⟨_, _, _, hq, _⟩
        · exact hz q
        · cases hq
        · cases hq
    · have c' : ¬ t / 2 < e - h / 2 := by linarith
      by_cases g : -t / 2 - (e + h / 2) < h
      · have hz : ¬ |(e + h / 2 - t / 2) / 2| ≤ t / 2 := by rw [abs_le]; rintro ⟨q, -⟩; linarith
        have a1 := (out _ hz).1 ((hS ⟨0, 0, (e + h / 2 - t / 2) / 2⟩).1 (Or.inr (Or.inl ⟨w, _, _, by
          rw [filledRib, if_neg c', if_pos c, if_pos g], by simp; linarith, by simp; linarith, by
          rw [abs_le]; constructor <;> linarith⟩)))
        have := (abs_le.1 a1).2
        linarith
      · have hz : ¬ |e| ≤ t / 2 := by rw [abs_le]; rintro ⟨q, -⟩; linarith
        have a1 := (hS ⟨0, 0, e⟩).2 ((out e hz).2 (by simp; linarith))
        rw [filledRib, if_neg c', if_pos c, if_neg g] at a1
        rcases a1 with ⟨-, -, q⟩ | ⟨_, _, _, hq, _⟩ | ⟨_, _, _, hq, _⟩
        · exact hz q
        · cases hq
        · cases hq
  · rintro ⟨c1, c2⟩ p
    rw [filledRib, if_neg (not_lt.2 c1), if_neg (not_lt.2 c2)]

end

/-- The hypotheses are met: a rib of width 4 over a plate of width 2 and thickness 1, and a rib at a distance of 1/4. -/
example : WidePlate (2 : ℚ) 2 1 (some (4, 1 / 2, 0)) none ∧ filledRib (1 : ℚ) 1 1 (5 / 4) = some (1, 5 / 4, 9 / 8) ∧
    filledRib (1 : ℚ) 1 1 3 = none := by
  refine ⟨⟨by norm_num, by norm_num, by norm_num, ?_, ?_, ?_, ?_⟩, by decide +kernel, by decide +kernel⟩
  · intro w h e q; cases q; norm_num
  · intro w h e q; cases q
  · intro w h e q; cases q; norm_num
  · intro w h e q; cases q

end PM
