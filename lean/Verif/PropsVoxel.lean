import Verif.Voxel
import Verif.PropsPlate
import Mathlib.Analysis.SpecialFunctions.Pow.Real

/-!
# Property C70: voxels of a cylinder
-/

namespace PM

section
variable {K : Type} [Field K] [LinearOrder K] [IsStrictOrderedRing K]

/-! ## specification -/

/-- Corner `(i, j, k)` of the lattice that divides the box of edges `2 r`, `2 r`, `h` around the origin into `n`, `n`, `m` parts. -/
def latticePt (r h : K) (n m i j k : Nat) : V3 K :=
  ⟨-r + 2 * r / n * i, -r + 2 * r / n * j, -h / 2 + h / m * k⟩

/-- The middle of a box. -/
def midPt (lo hi : V3 K) : V3 K := ⟨(lo.x + hi.x) / 2, (lo.y + hi.y) / 2, (lo.z + hi.z) / 2⟩

/-- The cells are those boxes of the lattice whose middle is in `P`, each once; no two points coincide and all are used. -/
structure VoxelMesh (r h : K) (n m : Nat) (P : V3 K → Prop) (C : List (List K)) (T : Topo) : Prop where
  cells : ∀ s ∈ T, ∃ i j k, i < n ∧ j < n ∧ k < m ∧
    P (midPt (latticePt r h n m i j k) (latticePt r h n m (i + 1) (j + 1) (k + 1))) ∧
    RowBox lcH8 C s (latticePt r h n m i j k) (latticePt r h n m (i + 1) (j + 1) (k + 1))
  all : ∀ i j k, i < n → j < n → k < m →
    P (midPt (latticePt r h n m i j k) (latticePt r h n m (i + 1) (j + 1) (k + 1))) →
    ∃ s ∈ T, RowBox lcH8 C s (latticePt r h n m i j k) (latticePt r h n m (i + 1) (j + 1) (k + 1))
  disjoint : ∀ (a b : Nat) (s s' : List Nat) (lo hi lo' hi' p : V3 K), T[a]? = some s → T[b]? = some s' → a ≠ b →
    RowBox lcH8 C s lo hi → RowBox lcH8 C s' lo' hi' → InsideB lo hi p → ¬ InB lo' hi' p
  distinct : C.Nodup
  used : ∀ n, UsesNode T n ↔ n < C.length

/-! ## the grid -/

/-- The values `-L / 2, -L / 2 + L / n, …, L / 2`. -/
def latticeBins (L : K) (n : Nat) : List K := (List.range (n + 1)).map fun (i : Nat) => -L / 2 + L / n * (i : K)

omit [LinearOrder K] [IsStrictOrderedRing K] in
theorem latticeBins_get {L : K} {n i : Nat} (h : i ≤ n) : (latticeBins L n)[i]? = some (-L / 2 + L / n * (i : K)) := by
  rw [latticeBins, List.getElem?_map, List.getElem?_range (by omega)]; rfl

theorem latticeBins_sorted {L : K} (hL : 0 < L) {n : Nat} (hn : 1 ≤ n) : (latticeBins L n).Pairwise (· < ·) := by
  rw [latticeBins, List.pairwise_map]
  refine List.Pairwise.imp ?_ List.pairwise_lt_range
  intro a b hab
  have h0 : (0 : K) < L / n := div_pos hL (by exact_mod_cast hn)
  have : (a : K) < b := by exact_mod_cast hab
  have := mul_lt_mul_of_pos_left this h0
  linarith

/-- The centred uniform grid is the grid of these bins. -/
theorem centred_uniform {lX lY lZ : K} {nx ny nz : Nat} (h : 1 ≤ nx ∧ 1 ≤ ny ∧ 1 ≤ nz) :
    grid { size := some [lX, lY, lZ], shape := some [nx, ny, nz], centralize := true } (.name "H8") none =
      gridNamed [2, 2, 2] pathH8 (argsB3 (latticeBins lX nx) (latticeBins lY ny) (latticeBins lZ nz) 0 0 0 0) := by
  have hlen : ∀ (L : K) (n : Nat), (latticeBins L n).length = n + 1 := fun L n => by simp [latticeBins]
  obtain ⟨C', h1, h2⟩ := C17_centralize_3d lX lY lZ nx ny nz 2 2 2 0 0 0 0 h ⟨by omega, by omega, by omega⟩
  have e1 : gridCore { args3 lX lY lZ nx ny nz 0 0 0 0 with centralize := true } [2, 2, 2] true none =
      some (C', (rgrid3 lX lY lZ nx ny nz 2 2 2 0 0 0 0).2) := h1
  have e2 : gridCore (argsB3 (latticeBins lX nx) (latticeBins lY ny) (latticeBins lZ nz) 0 0 0 0) [2, 2, 2] true none =
      some (gridBins3 (latticeBins lX nx) (latticeBins lY ny) (latticeBins lZ nz) 2 2 2 0 0 0 0) := rfl
  have e3 : grid { size := some [lX, lY, lZ], shape := some [nx, ny, nz], centralize := true } (.name "H8") none =
      gridNamed [2, 2, 2] pathH8 { args3 lX lY lZ nx ny nz 0 0 0 0 with centralize := true } := rfl
  rw [e3, gridNamed, gridNamed, e1, e2]
  have key : (C', (rgrid3 lX lY lZ nx ny nz 2 2 2 0 0 0 0).2) =
      gridBins3 (latticeBins lX nx) (latticeBins lY ny) (latticeBins lZ nz) 2 2 2 0 0 0 0 := by
    rw [rgrid3, rgrid3_closed lX lY lZ 0 0 0 0 h ⟨by omega, by omega, by omega⟩ (.refl _) (.refl _)] at h2 ⊢
    rw [gridBins3, bins3_closed 0 0 0 0 (by simp only [hlen]; omega) ⟨by omega, by omega, by omega⟩ (.refl _) (.refl _)]
    have ax : ∀ (L : K) (n : Nat), (binAxis (latticeBins L n) 2 0).n = n := fun L n => by simp [binAxis, hlen]
    have val : ∀ (L : K) (n x : Nat), 1 ≤ n → x < (uniAxis L n 2 0).pts →
        (uniAxis L n 2 0).val x - (0 + L / 2) = (binAxis (latticeBins L n) 2 0).val x := by
      intro L n x hn hx
      have hx' : x ≤ n := by simp [uniAxis, Axis.pts] at hx; omega
      rw [uni_val L 0 hn (by omega) x]
      simp only [Axis.val, Axis.pos, binAxis]
      have e : (latticeBins L n).getD (x / (2 - 1)) 0 = -L / 2 + L / n * (x : K) := by
        rw [List.getD_eq_getElem?_getD, Nat.div_one, latticeBins_get hx']; rfl
      rw [e]
      simp [Nat.mod_one]
      ring
    refine Prod.ext ?_ ?_
    · show C' = gridCoords _
      rw [h2, gridCoords, gridCoords, map_gridL]
      have ed : [uniAxis lX nx 2 0, uniAxis lY ny 2 0, uniAxis lZ nz 2 (0 : K)].map Axis.pts =
          [binAxis (latticeBins lX nx) 2 0, binAxis (latticeBins lY ny) 2 0, binAxis (latticeBins lZ nz) 2 0].map Axis.pts := by
        simp [Axis.pts, ax, uniAxis]
        simp [binAxis]
      rw [← ed]
      apply gridL_congr
      intro xs hxs
      simp only [List.map_cons, List.map_nil] at hxs
      match xs, hxs with
      | [x, y, z], hxs =>
        obtain ⟨a, b, c, -⟩ := hxs
        simp only [gridVal, List.zipWith_cons_cons, List.zipWith_nil_left, val lX nx x h.1 a, val lY ny y h.2.1 b,
          val lZ nz z h.2.2 c]
    · show addStart 0 (gridTopo _) = addStart 0 (gridTopo _)
      simp only [gridTopo, List.map_cons, List.map_nil, ax]
      simp [uniAxis, binAxis, hlen, Axis.pts]
      rfl
  rw [key]

/-! ## the kept cells -/

/-- The union of the kept boxes. -/
def KeptSet (bx bY bz : List K) (keep : List K → Bool) (p : V3 K) : Prop :=
  ∃ lo hi : V3 K, Gap bx lo.x hi.x ∧ Gap bY lo.y hi.y ∧ Gap bz lo.z hi.z ∧
    keep [(lo.x + hi.x) / 2, (lo.y + hi.y) / 2, (lo.z + hi.z) / 2] = true ∧ InB lo hi p

theorem keptMesh {lc : List (V3 Int)} (hm : HexMaster lc) {bx bY bz : List K} (hx : bx.Pairwise (· < ·)) (hy : bY.Pairwise (· < ·))
    (hz : bz.Pairwise (· < ·)) {C : List (List K)} {T : Topo} (g : GapGrid lc bx bY bz C T) (keep : List K → Bool) :
    PreMesh lc C (T.filter fun r => keep (centerOf (rowPts C r) 3)) (KeptSet bx bY bz keep) ∧
      OnGaps lc bx bY bz C (T.filter fun r => keep (centerOf (rowPts C r) 3)) := by
  have on : OnGaps lc bx bY bz C T := by
    intro r hr lo hi h
    obtain ⟨lo', hi', a, b, c, h'⟩ := g.box r hr
    obtain ⟨rfl, rfl⟩ := h.unique hm h'
    exact ⟨a, b, c⟩
  refine ⟨⟨?_, ?_, ?_, g.distinct⟩, fun r hr => on r (List.mem_filter.1 hr).1⟩
  · intro r hr
    obtain ⟨lo, hi, a, b, c, h⟩ := g.box r (List.mem_filter.1 hr).1
    exact ⟨lo, hi, a.lt hx, b.lt hy, c.lt hz, h⟩
  · intro p
    constructor
    · rintro ⟨lo, hi, a, b, c, k, hin⟩
      obtain ⟨r, hr, h⟩ := g.all lo hi a b c
      refine ⟨r, List.mem_filter.2 ⟨hr, ?_⟩, lo, hi, h, hin⟩
      rw [h.center hm]; exact k
    · rintro ⟨r, hr, lo, hi, h, hin⟩
      obtain ⟨hr, hk⟩ := List.mem_filter.1 hr
      obtain ⟨a, b, c⟩ := on r hr lo hi h
      rw [h.center hm] at hk
      exact ⟨lo, hi, a, b, c, hk, hin⟩
  · intro i j r s lo hi lo' hi' p hi1 hj1 hij h h' hp hp'
    have hr := (List.mem_filter.1 (List.mem_of_getElem? hi1)).1
    have hs := (List.mem_filter.1 (List.mem_of_getElem? hj1)).1
    obtain ⟨a, b, c⟩ := on r hr lo hi h
    obtain ⟨a', b', c'⟩ := on s hs lo' hi' h'
    obtain ⟨e1, e2⟩ := a.unique hx a' hp.1 hp'.1
    obtain ⟨e3, e4⟩ := b.unique hy b' hp.2.1 hp'.2.1
    obtain ⟨e5, e6⟩ := c.unique hz c' hp.2.2 hp'.2.2
    have el : lo' = lo := by ext <;> assumption
    have eh : hi' = hi := by ext <;> assumption
    subst el; subst eh
    have := h.rows g.distinct h'
    subst this
    have nd := g.nodup.filter fun r => keep (centerOf (rowPts C r) 3)
    exact hij ((List.getElem?_inj (List.getElem?_eq_some_iff.1 hi1).1 nd).1 (hi1.trans hj1.symm))

omit [LinearOrder K] [IsStrictOrderedRing K] in
theorem gap_lattice {L : K} {n : Nat} {l h : K} : Gap (latticeBins L n) l h ↔
    ∃ i, i < n ∧ l = -L / 2 + L / n * (i : K) ∧ h = -L / 2 + L / n * ((i + 1 : Nat) : K) := by
  constructor
  · rintro ⟨i, h1, h2⟩
    have hi : i + 1 < n + 1 := by
      have := (List.getElem?_eq_some_iff.1 h2).1; simpa [latticeBins] using this
    rw [latticeBins_get (by omega)] at h1 h2
    exact ⟨i, by omega, (Option.some.inj h1).symm, (Option.some.inj h2).symm⟩
  · rintro ⟨i, hi, rfl, rfl⟩
    exact ⟨i, latticeBins_get (by omega), latticeBins_get (by omega)⟩

theorem gaps_lattice {r h : K} {n m : Nat} {lo hi : V3 K} :
    (Gap (latticeBins (2 * r) n) lo.x hi.x ∧ Gap (latticeBins (2 * r) n) lo.y hi.y ∧ Gap (latticeBins h m) lo.z hi.z) ↔
    ∃ i j k, i < n ∧ j < n ∧ k < m ∧ lo = latticePt r h n m i j k ∧ hi = latticePt r h n m (i + 1) (j + 1) (k + 1) := by
  have e : -(2 * r) / 2 = -r := by ring
  simp only [gap_lattice, e]
  constructor
  · rintro ⟨⟨i, hi, a, b⟩, ⟨j, hj, c, d⟩, ⟨k, hk, f, g⟩⟩
    exact ⟨i, j, k, hi, hj, hk, by ext <;> assumption, by ext <;> assumption⟩
  · rintro ⟨i, j, k, hi, hj, hk, rfl, rfl⟩
    exact ⟨⟨i, hi, rfl, rfl⟩, ⟨j, hj, rfl, rfl⟩, ⟨k, hk, rfl, rfl⟩⟩

variable [FloorRing K]

/-- The voxels for any condition on the middle. -/
theorem voxelizeWith_mesh {r h size : K} (hr : 0 < r) (hh : 0 < h) (hs : 0 < size) (keep : List K → Bool) (P : V3 K → Prop)
    (hP : ∀ p : V3 K, keep [p.x, p.y, p.z] = true ↔ P p) :
    ∃ (n m : Nat) (C : List (List K)) (T : Topo), voxelizeWith r h size keep = some (C, T) ∧ 1 ≤ n ∧ 1 ≤ m ∧ 2 * r / (n : K) ≤ size ∧ h / (m : K) ≤ size ∧
      (∀ n' : Nat, 1 ≤ n' → 2 * r / (n' : K) ≤ size → n ≤ n') ∧ (∀ m' : Nat, 1 ≤ m' → h / (m' : K) ≤ size → m ≤ m') ∧
      VoxelMesh r h n m P C T := by
  have cl : ∀ x : K, 0 < x → 1 ≤ ⌈x / size⌉.toNat ∧ x / ((⌈x / size⌉.toNat : Nat) : K) ≤ size ∧
      ∀ n' : Nat, 1 ≤ n' → x / (n' : K) ≤ size → ⌈x / size⌉.toNat ≤ n' := by
    intro x hx
    have h1 : 0 < ⌈x / size⌉ := Int.ceil_pos.2 (div_pos hx hs)
    have h2 : ((⌈x / size⌉.toNat : Nat) : K) = ((⌈x / size⌉ : Int) : K) := by
      have := Int.toNat_of_nonneg h1.le
      exact_mod_cast congrArg (fun z : Int => (z : K)) this
    have h3 : 1 ≤ ⌈x / size⌉.toNat := by omega
    refine ⟨h3, ?_, ?_⟩
    · have h4 : (0 : K) < ((⌈x / size⌉.toNat : Nat) : K) := by exact_mod_cast h3
      rw [div_le_iff₀ h4, h2, mul_comm, ← div_le_iff₀ hs]
      exact Int.le_ceil _
    · intro n' hn' hx'
      have h4 : (0 : K) < (n' : K) := by exact_mod_cast hn'
      rw [div_le_iff₀ h4, mul_comm, ← div_le_iff₀ hs] at hx'
      have : ⌈x / size⌉ ≤ (n' : Int) := Int.ceil_le.2 (by exact_mod_cast hx')
      omega
  obtain ⟨n1, n2, n3⟩ := cl (2 * r) (by linarith)
  obtain ⟨m1, m2, m3⟩ := cl h hh
  generalize en : ⌈2 * r / size⌉ = N at n1 n2 n3
  generalize em : ⌈h / size⌉ = M at m1 m2 m3
  have hx := latticeBins_sorted (L := 2 * r) (by linarith) n1
  have hz := latticeBins_sorted hh m1
  have hlen : ∀ (L : K) (n : Nat), (latticeBins L n).length = n + 1 := fun L n => by simp [latticeBins]
  obtain ⟨C, T, e, g⟩ := gapGrid 2 (by omega) tabH8 hexH8 (bx := latticeBins (2 * r) N.toNat) (bY := latticeBins (2 * r) N.toNat)
    (bz := latticeBins h M.toNat) (by simp only [hlen]; omega) hx hx hz
  obtain ⟨pm, og⟩ := keptMesh hexH8 hx hx hz g keep
  obtain ⟨c, t, h1, bm, og'⟩ := pm.detached og
  refine ⟨N.toNat, M.toNat, c, t, ?_, n1, m1, n2, m2, n3, m3, ?_, ?_, bm.disjoint, bm.distinct, bm.used⟩
  · have eg : voxelGrid r h size = some (C, T.map (List.map Int.toNat)) := by
      rw [voxelGrid, if_neg hs.ne']
      simp only [en, em]
      rw [if_neg (by omega), centred_uniform ⟨n1, n1, m1⟩, e]
      rfl
    rw [voxelizeWith, eg]
    simp only [Option.bind_eq_bind, Option.bind_some]
    rw [g.centers]
    simp only [Option.bind_some]
    rw [maskRows_map]
    exact h1
  · intro s hs'
    obtain ⟨lo, hi, lx, ly, lz, hb⟩ := bm.box s hs'
    obtain ⟨gx, gy, gz⟩ := og' s hs' lo hi hb
    have inside : InsideB lo hi (midPt lo hi) := by
      refine ⟨⟨?_, ?_⟩, ⟨?_, ?_⟩, ⟨?_, ?_⟩⟩ <;> simp only [midPt] <;> linarith
    obtain ⟨lo', hi', gx', gy', gz', hk, hin⟩ := (bm.cover (midPt lo hi)).2 ⟨s, hs', lo, hi, hb,
      ⟨inside.1.1.le, inside.1.2.le⟩, ⟨inside.2.1.1.le, inside.2.1.2.le⟩, ⟨inside.2.2.1.le, inside.2.2.2.le⟩⟩
    obtain ⟨e1, e2⟩ := gx.unique hx gx' inside.1 hin.1
    obtain ⟨e3, e4⟩ := gy.unique hx gy' inside.2.1 hin.2.1
    obtain ⟨e5, e6⟩ := gz.unique hz gz' inside.2.2 hin.2.2
    have el : lo' = lo := by ext <;> assumption
    have eh : hi' = hi := by ext <;> assumption
    subst el; subst eh
    obtain ⟨i, j, k, a, b, d, rfl, rfl⟩ := gaps_lattice.1 ⟨gx, gy, gz⟩
    exact ⟨i, j, k, a, b, d, (hP (midPt _ _)).1 hk, hb⟩
  · intro i j k hi hj hk hp
    generalize elo : latticePt r h N.toNat M.toNat i j k = lo at hp
    generalize ehi : latticePt r h N.toNat M.toNat (i + 1) (j + 1) (k + 1) = hi' at hp
    obtain ⟨gx, gy, gz⟩ := gaps_lattice.2 ⟨i, j, k, hi, hj, hk, elo.symm, ehi.symm⟩
    have lx := gx.lt hx
    have ly := gy.lt hx
    have lz := gz.lt hz
    have inside : InsideB lo hi' (midPt lo hi') := by
      refine ⟨⟨?_, ?_⟩, ⟨?_, ?_⟩, ⟨?_, ?_⟩⟩ <;> simp only [midPt] <;> linarith
    obtain ⟨s, hs', lo', hi'', hb, hin⟩ := (bm.cover (midPt lo hi')).1 ⟨lo, hi', gx, gy, gz, (hP (midPt _ _)).2 hp,
      ⟨inside.1.1.le, inside.1.2.le⟩, ⟨inside.2.1.1.le, inside.2.1.2.le⟩, ⟨inside.2.2.1.le, inside.2.2.2.le⟩⟩
    obtain ⟨gx', gy', gz'⟩ := og' s hs' _ _ hb
    obtain ⟨e1, e2⟩ := gx.unique hx gx' inside.1 hin.1
    obtain ⟨e3, e4⟩ := gy.unique hx gy' inside.2.1 hin.2.1
    obtain ⟨e5, e6⟩ := gz.unique hz gz' inside.2.2 hin.2.2
    have el : lo' = lo := by ext <;> assumption
    have eh : hi'' = hi' := by ext <;> assumption
    subst el; subst eh
    exact ⟨s, hs', hb⟩

end

/-! ## the cylinder -/

/-- Distance of a point from the axis. -/
noncomputable def axisDist (p : V3 ℝ) : ℝ := Real.sqrt (p.x ^ 2 + p.y ^ 2)

theorem ringKeep_iff (r0 r1 : ℝ) (p : V3 ℝ) : ringKeep r0 r1 [p.x, p.y, p.z] = true ↔ r0 ≤ axisDist p ∧ axisDist p ≤ r1 := by
  simp [ringKeep, axisDist, and_comm]

/-- **C70** the voxels of a cylinder of inner radius `r0`, outer radius `r1` and height `h` are the boxes of the coarsest lattice of
edges at most `size` whose middle is in the cylinder, each once; there are no other points. -/
theorem C70_voxels {r0 r1 h size : ℝ} (h1 : 0 < r1) (hh : 0 < h) (hs : 0 < size) :
    ∃ (n m : Nat) (C : List (List ℝ)) (T : Topo), voxelizeCylinder (.pair r0 r1) h size = some (C, T) ∧ 1 ≤ n ∧ 1 ≤ m ∧
      2 * r1 / (n : ℝ) ≤ size ∧ h / (m : ℝ) ≤ size ∧
      (∀ n' : Nat, 1 ≤ n' → 2 * r1 / (n' : ℝ) ≤ size → n ≤ n') ∧ (∀ m' : Nat, 1 ≤ m' → h / (m' : ℝ) ≤ size → m ≤ m') ∧
      VoxelMesh r1 h n m (fun p => r0 ≤ axisDist p ∧ axisDist p ≤ r1) C T :=
  voxelizeWith_mesh h1 hh hs _ _ (ringKeep_iff r0 r1)

/-- **C70** an integer radius is that of a solid cylinder. -/
theorem C70_int (R : Int) (h size : ℝ) : voxelizeCylinder (.int R) h size = voxelizeCylinder (.pair 0 R) h size := rfl

/-- **C70** is false for a float, for which the documentation allows. -/
theorem C70_float_false (x h size : ℝ) (s : SizeArg ℝ) : voxelizeCylinder (.float x) h size = none ∧ cylinderVoxels (.float x) h s = none :=
  ⟨rfl, rfl⟩

theorem axisDist_sub (p q : V3 ℝ) : axisDist p ≤ axisDist q + axisDist (p - q) := by
  unfold axisDist
  rw [Real.sqrt_le_left (by positivity)]
  have ha := Real.sq_sqrt (by positivity : 0 ≤ q.x ^ 2 + q.y ^ 2)
  have hb := Real.sq_sqrt (by positivity : 0 ≤ (p - q).x ^ 2 + (p - q).y ^ 2)
  have hc : q.x * (p - q).x + q.y * (p - q).y ≤ Real.sqrt (q.x ^ 2 + q.y ^ 2) * Real.sqrt ((p - q).x ^ 2 + (p - q).y ^ 2) := by
    rw [← Real.sqrt_mul (by positivity)]
    apply Real.le_sqrt_of_sq_le
    nlinarith [sq_nonneg (q.x * (p - q).y - q.y * (p - q).x)]
  have ex : (p - q).x = p.x - q.x := rfl
  have ey : (p - q).y = p.y - q.y := rfl
  rw [add_sq, ha, hb]
  rw [ex, ey] at hc ⊢
  nlinarith

/-- **C70** how well the voxels fit: with `δ = size / √2`, half of the diagonal of a square of edge `size`, all points of the cylinder
that are further than `δ` from the two walls are covered, and all covered points are at most `δ` off. -/
theorem C70_fit {r0 r1 h size : ℝ} (h1 : 0 < r1) (hh : 0 < h) (hs : 0 < size) {C : List (List ℝ)} {T : Topo}
    (hv : voxelizeCylinder (.pair r0 r1) h size = some (C, T)) (p : V3 ℝ) :
    (|p.z| ≤ h / 2 → r0 + size / Real.sqrt 2 ≤ axisDist p → axisDist p ≤ r1 - size / Real.sqrt 2 →
      ∃ s ∈ T, ∃ lo hi, RowBox lcH8 C s lo hi ∧ InB lo hi p) ∧
    ((∃ s ∈ T, ∃ lo hi, RowBox lcH8 C s lo hi ∧ InB lo hi p) →
      |p.z| ≤ h / 2 ∧ r0 - size / Real.sqrt 2 ≤ axisDist p ∧ axisDist p ≤ r1 + size / Real.sqrt 2) := by
  obtain ⟨n, m, C', T', e, n1, m1, n2, m2, -, -, vm⟩ := C70_voxels (r0 := r0) h1 hh hs
  rw [hv] at e
  obtain ⟨rfl, rfl⟩ := Prod.mk.inj (Option.some.inj e)
  have n0 : (0 : ℝ) < n := by exact_mod_cast n1
  have m0 : (0 : ℝ) < m := by exact_mod_cast m1
  -- the middle of a box is near
  have near : ∀ i j k, InB (latticePt r1 h n m i j k) (latticePt r1 h n m (i + 1) (j + 1) (k + 1)) p →
      axisDist (p - midPt (latticePt r1 h n m i j k) (latticePt r1 h n m (i + 1) (j + 1) (k + 1))) ≤ size / Real.sqrt 2 := by
    intro i j k hin
    obtain ⟨⟨x1, x2⟩, ⟨y1, y2⟩, -⟩ := hin
    unfold axisDist
    have h2 : (0 : ℝ) < Real.sqrt 2 := by positivity
    rw [Real.sqrt_le_left (by positivity), div_pow, Real.sq_sqrt (by norm_num)]
    simp only [latticePt] at x1 x2 y1 y2
    have bnd : ∀ (c : Nat) (t : ℝ), -r1 + 2 * r1 / n * c ≤ t → t ≤ -r1 + 2 * r1 / n * ((c + 1 : Nat) : ℝ) →
        (t - (-r1 + 2 * r1 / n * c + (-r1 + 2 * r1 / n * ((c + 1 : Nat) : ℝ))) / 2) ^ 2 ≤ (size / 2) ^ 2 := by
      intro c t t1 t2
      push_cast at t2 ⊢
      apply sq_le_sq'
      · linarith
      · linarith
    have b1 := bnd i p.x x1 x2
    have b2 := bnd j p.y y1 y2
    have ex : (p - midPt (latticePt r1 h n m i j k) (latticePt r1 h n m (i + 1) (j + 1) (k + 1))).x =
      p.x - (-r1 + 2 * r1 / n * i + (-r1 + 2 * r1 / n * ((i + 1 : Nat) : ℝ))) / 2 := rfl
    have ey : (p - midPt (latticePt r1 h n m i j k) (latticePt r1 h n m (i + 1) (j + 1) (k + 1))).y =
      p.y - (-r1 + 2 * r1 / n * j + (-r1 + 2 * r1 / n * ((j + 1 : Nat) : ℝ))) / 2 := rfl
    rw [ex, ey]
    linarith
  have sym : ∀ q : V3 ℝ, axisDist (q - p) = axisDist (p - q) := by
    intro q
    unfold axisDist
    congr 1
    show (q.x - p.x) ^ 2 + (q.y - p.y) ^ 2 = (p.x - q.x) ^ 2 + (p.y - q.y) ^ 2
    ring
  constructor
  · intro hz hr0 hr1
    have hsz : 0 < size / Real.sqrt 2 := by positivity
    have hxy : |p.x| ≤ r1 ∧ |p.y| ≤ r1 := by
      constructor
      · exact (Real.abs_le_sqrt (le_add_of_nonneg_right (sq_nonneg p.y))).trans (by show axisDist p ≤ _; linarith)
      · exact (Real.abs_le_sqrt (le_add_of_nonneg_left (sq_nonneg p.x))).trans (by show axisDist p ≤ _; linarith)
    have find : ∀ (L : ℝ) (N : Nat) (t : ℝ), 0 < L → 1 ≤ N → |t| ≤ L / 2 → ∃ i, i < N ∧ -L / 2 + L / N * (i : ℝ) ≤ t ∧
        t ≤ -L / 2 + L / N * ((i + 1 : Nat) : ℝ) := by
      intro L N t hL hN ht
      obtain ⟨t1, t2⟩ := abs_le.1 ht
      have hN0 : (0 : ℝ) < N := by exact_mod_cast hN
      obtain ⟨l, u, g, -, a1, a2, -⟩ := Gap.cover (latticeBins_sorted hL hN) (lo := -L / 2) (hi := L / 2) (x := t)
        (List.mem_iff_getElem?.2 ⟨0, by rw [latticeBins_get (by omega)]; simp⟩)
        (List.mem_iff_getElem?.2 ⟨N, by rw [latticeBins_get (le_refl _)]; congr 1; field_simp; ring⟩) (by linarith)
        ⟨by linarith, t2⟩
      obtain ⟨i, hi, rfl, rfl⟩ := gap_lattice.1 g
      exact ⟨i, hi, a1, a2⟩
    have e2 : 2 * r1 / 2 = r1 := by ring
    have e3 : -(2 * r1) / 2 = -r1 := by ring
    obtain ⟨i, hi, x1, x2⟩ := find (2 * r1) n p.x (by linarith) n1 (by rw [e2]; exact hxy.1)
    obtain ⟨j, hj, y1, y2⟩ := find (2 * r1) n p.y (by linarith) n1 (by rw [e2]; exact hxy.2)
    obtain ⟨k, hk, z1, z2⟩ := find h m p.z hh m1 hz
    rw [e3] at x1 x2 y1 y2
    have hin : InB (latticePt r1 h n m i j k) (latticePt r1 h n m (i + 1) (j + 1) (k + 1)) p :=
      ⟨⟨x1, x2⟩, ⟨y1, y2⟩, ⟨z1, z2⟩⟩
    have nr := near i j k hin
    have t1 := axisDist_sub p (midPt (latticePt r1 h n m i j k) (latticePt r1 h n m (i + 1) (j + 1) (k + 1)))
    have t2 := axisDist_sub (midPt (latticePt r1 h n m i j k) (latticePt r1 h n m (i + 1) (j + 1) (k + 1))) p
    rw [sym] at t2
    obtain ⟨s, hs', hb⟩ := vm.all i j k hi hj hk ⟨by linarith, by linarith⟩
    exact ⟨s, hs', _, _, hb, hin⟩
  · rintro ⟨s, hs', lo, hi, hb, hin⟩
    obtain ⟨i, j, k, hi', hj', hk', ⟨r1', r2'⟩, hb'⟩ := vm.cells s hs'
    obtain ⟨rfl, rfl⟩ := hb'.unique hexH8 hb
    have nr := near i j k hin
    have t1 := axisDist_sub p (midPt (latticePt r1 h n m i j k) (latticePt r1 h n m (i + 1) (j + 1) (k + 1)))
    have t2 := axisDist_sub (midPt (latticePt r1 h n m i j k) (latticePt r1 h n m (i + 1) (j + 1) (k + 1))) p
    rw [sym] at t2
    refine ⟨?_, by linarith, by linarith⟩
    obtain ⟨-, -, z1, z2⟩ := hin
    simp only [latticePt] at z1 z2
    have q : (0 : ℝ) ≤ h / m := by positivity
    have q1 : 0 ≤ h / m * (k : ℝ) := by positivity
    have q2 : h / m * ((k + 1 : Nat) : ℝ) ≤ h := by
      have : ((k + 1 : Nat) : ℝ) ≤ m := by exact_mod_cast hk'
      calc h / m * ((k + 1 : Nat) : ℝ) ≤ h / m * m := mul_le_mul_of_nonneg_left this q
        _ = h := by field_simp
    exact abs_le.2 ⟨by linarith, by linarith⟩

/-- **C70** `cylinder(..., voxelize=True)`: a float is the maximum size of the edges, an integer divides the difference of the radii. -/
theorem C70_cylinder (r0 r1 h x : ℝ) {N : Int} (hN : N ≠ 0) :
    cylinderVoxels (.pair r0 r1) h (.float x) = voxelizeCylinder (.pair r0 r1) h x ∧
    cylinderVoxels (.pair r0 r1) h (.int N) = voxelizeCylinder (.pair r0 r1) h ((r1 - r0) / N) := by
  have e : ∀ s : SizeArg ℝ, cylinderVoxels (.pair r0 r1) h s =
      (s.get (r0, r1)).bind fun s => voxelizeCylinder (.pair r0 r1) h s := fun s => by
    rw [cylinderVoxels, RadiusArg.get, Option.bind_some]
  rw [e, e]
  constructor
  · rw [SizeArg.get, Option.bind_some]
  · rw [SizeArg.get, if_neg hN, Option.bind_some]

/-- **C70** is false as documented: the edges are not `(r1 - r0) / size`, but smaller in general (here 5 / 2 instead of 3). -/
theorem C70_edge_false : ∃ C T, cylinderVoxels (.pair 2 5) 3 (.int 1) = some (C, T) ∧ T ≠ [] ∧
    ∀ s ∈ T, ∀ lo hi, RowBox lcH8 C s lo hi → hi.x - lo.x = 5 / 2 ∧ hi.y - lo.y = 5 / 2 ∧ hi.z - lo.z = 3 := by
  rw [(C70_cylinder 2 5 3 0 (N := 1) (by norm_num)).2]
  obtain ⟨n, m, C, T, e, n1, m1, n2, m2, n3, m3, vm⟩ := C70_voxels (r0 := 2) (r1 := 5) (h := 3) (size := (5 - 2) / ((1 : Int) : ℝ))
    (by norm_num) (by norm_num) (by norm_num)
  have hn : n = 4 := by
    have a := n3 4 (by norm_num) (by norm_num)
    have n0 : (0 : ℝ) < n := by exact_mod_cast n1
    rw [div_le_iff₀ n0] at n2
    have : (3 : ℝ) < n := by push_cast at n2; linarith
    have : 3 < n := by exact_mod_cast this
    omega
  have hm : m = 1 := by
    have a := m3 1 (by norm_num) (by norm_num)
    omega
  subst hn; subst hm
  refine ⟨C, T, e, ?_, ?_⟩
  · obtain ⟨s, hs, -⟩ := vm.all 0 1 0 (by norm_num) (by norm_num) (by norm_num) (by
      simp only [midPt, latticePt, axisDist]
      constructor
      · apply Real.le_sqrt_of_sq_le; norm_num
      · rw [Real.sqrt_le_left (by norm_num)]; norm_num)
    exact List.ne_nil_of_mem hs
  · intro s hs lo hi hb
    obtain ⟨i, j, k, -, -, -, -, hb'⟩ := vm.cells s hs
    obtain ⟨rfl, rfl⟩ := hb'.unique hexH8 hb
    simp only [latticePt]
    push_cast
    refine ⟨by ring, by ring, by ring⟩

/-- The condition on squares. -/
theorem ringKeep_sq {r0 r1 : ℝ} (h0 : 0 ≤ r0) (h1 : 0 ≤ r1) (x y z : ℝ) :
    ringKeep r0 r1 [x, y, z] = true ↔ r0 ^ 2 ≤ x ^ 2 + y ^ 2 ∧ x ^ 2 + y ^ 2 ≤ r1 ^ 2 := by
  rw [ringKeep_iff r0 r1 ⟨x, y, z⟩]
  simp only [axisDist]
  rw [Real.le_sqrt h0 , Real.sqrt_le_left h1]
  positivity

/-- Radii 1 and 2, height 1, edges 1: of the 16 cells the four inner ones (distance of the middle 1 / √2 from the axis) and the four
at the corners (distance 3 / √2) are left out. -/
example : ((voxelGrid (2 : ℚ) 1 1).bind fun g => (cellCentersBulk g.1 g.2 3).map fun (ce : List (List ℚ)) =>
    maskRows g.2 ce fun c => decide (1 ≤ c.getD 0 0 * c.getD 0 0 + c.getD 1 0 * c.getD 1 0) &&
      decide (c.getD 0 0 * c.getD 0 0 + c.getD 1 0 * c.getD 1 0 ≤ 4)) =
    some [[2, 12, 14, 4, 3, 13, 15, 5], [4, 14, 16, 6, 5, 15, 17, 7], [10, 20, 22, 12, 11, 21, 23, 13], [16, 26, 28, 18, 17, 27, 29, 19],
      [20, 30, 32, 22, 21, 31, 33, 23], [26, 36, 38, 28, 27, 37, 39, 29], [32, 42, 44, 34, 33, 43, 45, 35], [34, 44, 46, 36, 35, 45, 47, 37]] := by
  decide +kernel

end PM
