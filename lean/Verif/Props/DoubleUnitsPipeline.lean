import Verif.Props.DoubleUnitsPotential

/-!
# C91: from the raw particles to the components in units that differ by powers of two
-/

namespace GChop
open Pd Flt

/-- `star_align(center(potential(galaxy, backend=backend)), r_cut=rCut)` with given orders of summation
and given dot products in double and single precision -/
def prepareBy (sm : List Float64 → Float64) (dt : List (Float64 × Float64) → Float64)
    (sm' : List Float32' → Float32') (dt' : List (Float32' × Float32') → Float32')
    (env : PotEnv Float64 Float32') (backend : String) (rCut : Option Float64)
    (g : Galaxy Float64) : Py (Galaxy Float64) := do
  let g1 ← @potential _ _ _ (singleSumDot sm' dt') env g backend
  let g2 ← center g1
  @starAlign _ (sumDot sm dt) g2 rCut

/-- the raw particle: masses, coordinates and velocities are zero or of moderate size in both units -/
structure Body.Moderate (l i j : ℤ) (a : Body Float64) : Prop extends a.Near l i where
  vx : Flt.InRange j 40 a.vx
  vy : Flt.InRange j 40 a.vy
  vz : Flt.InRange j 40 a.vz

/-- coordinates and velocities are zero or of a size whose squares of products do not underflow -/
structure Body.NotTiny (i j : ℤ) (a : Body Float64) : Prop where
  x : Flt.InRange i 200 a.x
  y : Flt.InRange i 200 a.y
  z : Flt.InRange i 200 a.z
  vx : Flt.InRange j 200 a.vx
  vy : Flt.InRange j 200 a.vy
  vz : Flt.InRange j 200 a.vz

theorem Flt.InRange.mono {fmt : Fmt} {k p q : ℤ} {a : Flt fmt} (h : Flt.InRange k p a) (hpq : p ≤ q) :
    Flt.InRange k q a := by
  obtain ⟨s, m, rfl, h⟩ := h
  have h1 : (2 : ℚ) ^ p ≤ 2 ^ q := zpow_le_zpow_right₀ (by norm_num) hpq
  have h2 : (2 : ℚ) ^ (-q) ≤ 2 ^ (-p) := zpow_le_zpow_right₀ (by norm_num) (by omega)
  exact ⟨s, m, rfl, h.imp_right fun ⟨a1, a2, a3, a4⟩ =>
    ⟨h2.trans a1, a2.trans h1, h2.trans a3, a4.trans h1⟩⟩

section
variable {l i j : ℤ}

theorem Body.Moderate.fits {a : Body Float64} (h : a.Moderate l i j) : a.Fits l i j 40 :=
  (C89_range (h.m.mono (by omega)) (h.x.mono (by omega)) (h.y.mono (by omega)) (h.z.mono (by omega))
    h.vx h.vy h.vz).1

/-- the mass and the softenings do not matter for the circularity -/
theorem jcirc_rescale (env : CircEnv Float64) (b : BGalaxy Float64) (hi : |i| ≤ 400) (hj : |j| ≤ 400)
    (h : ∀ a ∈ b.all, a.Tame i j) (bin0 bin1 : Float64) :
    jcirc env (Galaxy.ofBodies (b.rescale l i j (2 * j))) bin0 bin1 =
      jcirc env (Galaxy.ofBodies b) bin0 bin1 := by
  have e : jcirc env (Galaxy.ofBodies (b.rescale l i j (2 * j))) bin0 bin1
      = jcirc env (Galaxy.ofBodies (b.mapBodies (Body.rescale l i j (2 * j)))) bin0 bin1 := by
    cases hp : b.hasPot with
    | false =>
      exact (jcirc_noPot env (b.rescale l i j (2 * j)) hp ..).trans
        (jcirc_noPot env (b.mapBodies (Body.rescale l i j (2 * j))) hp ..).symm
    | true =>
      exact (jcirc_ofBodies env (b.rescale l i j (2 * j)) hp ..).trans
        (jcirc_ofBodies env (b.mapBodies (Body.rescale l i j (2 * j))) hp ..).symm
  rw [e]
  exact jcirc_units (unitRel_scaled (2 * j)) (unitRel_scaled (i + j)) Scaled.isBound env b
    (Body.rescale l i j (2 * j))
    (fun a ha => (h a ha).energy hj) (fun a ha => ((h a ha).jz hi hj).scaled)
    (fun a ha => (h a ha).jr hi hj) bin0 bin1

/-- C91: let masses, lengths and velocities be expressed in units that differ by powers of two and leave
the gravitational constant as it is (`l = i + 2 j`).  Then potential, centring and alignment give the same
galaxy up to the units, bit for bit; and if no aligned coordinate or velocity is a nonzero number below
`2^-200`, the circularities and all decompositions by them are the same. -/
theorem C91_pipeline (sm : List Float64 → Float64) (hs : SameOrder sm)
    (dt : List (Float64 × Float64) → Float64) (hd : SameDot dt) (sm' : List Float32' → Float32')
    (hs' : SameOrder sm') (dt' : List (Float32' × Float32') → Float32') (hd' : SameDot dt')
    (G : Float32') (hG : Grid (-43) 0 G) (built : Bool) (junk : Nat → Nat → Float32') (backend : String)
    (hb : backend = "fortran" ∧ built = true ∨ backend = "numpy" ∧ ∀ k k', junk k k' = Num.ofRat 0)
    (b : BGalaxy Float64) (hl : l = i + 2 * j) (hi : |i| ≤ 100) (hj : |j| ≤ 100)
    (hp : b.hasPot = false) (h : ∀ a ∈ b.all, a.Moderate l i j) (hS : Flt.InRange i 20 b.softS)
    (hD : Flt.InRange i 20 b.softDm) (hGs : Flt.InRange i 20 b.softG) (hn : b.all.length < 2 ^ 24)
    (rCut : Option Float64) (hc : ∀ c ∈ rCut, Flt.InRange i 200 c) (p : ℤ) :
    (prepareBy sm dt sm' dt' (singleEnv G built junk) backend rCut (Galaxy.ofBodies b)
        = .error .valueError ∧
      prepareBy sm dt sm' dt' (singleEnv G built junk) backend (rCut.map (Num.ofRat (2 ^ i) *. ·))
        (Galaxy.ofBodies (b.rescale l i j p)) = .error .valueError) ∨
    ∃ b' : BGalaxy Float64,
      prepareBy sm dt sm' dt' (singleEnv G built junk) backend rCut (Galaxy.ofBodies b)
        = .ok (Galaxy.ofBodies b') ∧
      prepareBy sm dt sm' dt' (singleEnv G built junk) backend (rCut.map (Num.ofRat (2 ^ i) *. ·))
        (Galaxy.ofBodies (b.rescale l i j p)) = .ok (Galaxy.ofBodies (b'.rescale l i j (2 * j))) ∧
      ((∀ a ∈ b'.all, a.NotTiny i j) →
        (∀ (env : CircEnv Float64) (bin0 bin1 : Float64),
          jcirc env (Galaxy.ofBodies (b'.rescale l i j (2 * j))) bin0 bin1
            = jcirc env (Galaxy.ofBodies b') bin0 bin1) ∧
        ∀ (env : CircEnv Float64) (cbins : Float64 × Float64) (dec : Decomposer Float64),
          (∀ a ∈ dec.attributes, a ∈ circularityAttributes) →
          decompose env cbins dec (Galaxy.ofBodies (b'.rescale l i j (2 * j)))
            = decompose env cbins dec (Galaxy.ofBodies b')) := by
  have hl' : |l| ≤ 400 := by rw [abs_le] at *; omega
  have hi' : |i| ≤ 400 := hi.trans (by norm_num)
  have hj' : |j| ≤ 400 := hj.trans (by norm_num)
  have hli : l - i = 2 * j := by omega
  have hp2 : |2 * j| ≤ 800 := by rw [abs_le] at *; omega
  obtain ⟨b1, e1, e1', hf1, pots, rfl⟩ := C90_potential sm' hs' dt' hd' G hG built junk backend hb b l
    i j hl' hi' hp (fun a ha => (h a ha).toNear) hS hD hGs hn p
  rw [hli] at e1' hf1
  have fits1 : ∀ a ∈ (b.withPot pots).all, a.Fits l i j 40 := by
    intro a ha
    rw [withPot_all] at ha
    obtain ⟨k, hk, rfl⟩ := List.mem_mapIdx.1 ha
    have := (h _ (List.getElem_mem hk)).fits
    exact ⟨this.m, this.x, this.y, this.z, this.vx, this.vy, this.vz⟩
  unfold prepareBy
  rw [e1, e1']
  simp only [Py.ok_bind]
  rcases C89_center (b.withPot pots) l i j (2 * j) hi' hp2 fits1 hf1 with ⟨e2, e2'⟩ |
    ⟨b2, e2, e2', fits2, len2, hp2', pot2⟩
  · left
    rw [e2, e2']
    exact ⟨rfl, rfl⟩
  · rw [e2, e2']
    simp only [Py.ok_bind]
    have hst : b2.stars.length ≤ 2 ^ 30 := by
      rw [len2]
      have : (b.withPot pots).stars.length ≤ b.all.length := by
        simp [BGalaxy.withPot, BGalaxy.all]
      omega
    rcases C89_star_align sm hs dt hd b2 l i j (2 * j) hl' hi' hj' fits2 hst rCut hc with e3 |
      ⟨b3, e3, e3', hp3, pot3⟩
    · exact Or.inl e3
    · refine Or.inr ⟨b3, e3, e3', fun ht => ?_⟩
      have tame : ∀ a ∈ b3.all, a.Tame i j := by
        intro a ha
        have hpm : a.pot ∈ (b.withPot pots).all.map (·.pot) := by
          rw [← pot2, ← pot3]
          exact List.mem_map_of_mem ha
        obtain ⟨c, hc, hcp⟩ := List.mem_map.1 hpm
        have := hf1 c hc
        unfold Body.PotFits at this
        rw [hcp] at this
        have t := ht a ha
        exact ⟨t.x, t.y, t.z, t.vx, t.vy, t.vz, this⟩
      refine ⟨fun env bin0 bin1 => jcirc_rescale env b3 hi' hj' tame bin0 bin1, ?_⟩
      intro env cbins dec ha
      apply decompose_congr env cbins dec _ _ ha (jcirc_rescale env b3 hi' hj' tame cbins.1 cbins.2)
      · simp [Galaxy.ofBodies, ParticleSet.len, ParticleSet.ofBodies, BGalaxy.dmSet, BGalaxy.rescale,
          BGalaxy.mapBodies]
      · simp [Galaxy.ofBodies, ParticleSet.len, ParticleSet.ofBodies, BGalaxy.gSet, BGalaxy.rescale,
          BGalaxy.mapBodies]
end

/-! ## Non-vacuity -/

/-- a star at the origin and one at (0, 1, 1) with velocity (1, 0, 0), without potential -/
def exRaw : BGalaxy Float64 :=
  { starsOnly [starAt (dv 0 0 0) (dv 0 0 0), starAt (dv 0 1 1) (dv 1 0 0)] with hasPot := false }

/-- the surroundings with the gravitational constant of the package -/
def exPotEnv : PotEnv Float64 Float32' :=
  singleEnv (Num.ofRat (430091 / 100000000000)) true fun _ _ => Num.ofRat 0

/-- `exRaw` with its potential -/
def exRaw1 : BGalaxy Float64 := exRaw.withPot (backendPot exPotEnv "fortran" exRaw.all exRaw.softs)

/-- and centred -/
def exRaw2 : BGalaxy Float64 :=
  let c := exRaw1.stars.headD (starAt (dv 0 0 0) (dv 0 0 0))
  exRaw1.mapBodies (·.shift c.x c.y c.z)

/-- a computable form of `Body.NotTiny` -/
def inRange200 (i j : ℤ) (a : Body Float64) : Bool :=
  inRangeB i 200 a.x && inRangeB i 200 a.y && inRangeB i 200 a.z && inRangeB j 200 a.vx &&
    inRangeB j 200 a.vy && inRangeB j 200 a.vz

theorem notTiny_of {i j : ℤ} {a : Body Float64} (h : inRange200 i j a = true) : a.NotTiny i j := by
  simp only [inRange200, Bool.and_eq_true] at h
  obtain ⟨⟨⟨⟨⟨h1, h2⟩, h3⟩, h4⟩, h5⟩, h6⟩ := h
  exact ⟨inRange_of h1, inRange_of h2, inRange_of h3, inRange_of h4, inRange_of h5, inRange_of h6⟩

/-- the hypotheses hold for `exRaw`, lengths times 32, velocities divided by 4, masses times 2 -/
example : exRaw.hasPot = false ∧ (∀ a ∈ exRaw.all, a.Moderate 1 5 (-2)) ∧
    ∃ b' : BGalaxy Float64,
      prepareBy Num.sum Num.dot Num.sum Num.dot exPotEnv "fortran" none (Galaxy.ofBodies exRaw)
        = .ok (Galaxy.ofBodies b') ∧
      ∀ a ∈ b'.all, a.NotTiny 5 (-2) := by
  refine ⟨rfl, ?_, ?_⟩
  · intro a ha
    simp only [exRaw, starsOnly, BGalaxy.all, List.append_nil, List.mem_cons, List.not_mem_nil,
      or_false] at ha
    rcases ha with rfl | rfl <;>
      exact ⟨⟨inRange_of (by decide +kernel), inRange_of (by decide +kernel),
        inRange_of (by decide +kernel), inRange_of (by decide +kernel)⟩, inRange_of (by decide +kernel),
        inRange_of (by decide +kernel), inRange_of (by decide +kernel)⟩
  · refine ⟨exRaw2.mapBodies (Body.rot (alignMatrix none exRaw2.stars)), ?_, ?_⟩
    · have e1 : potential exPotEnv (Galaxy.ofBodies exRaw) "fortran" = .ok (Galaxy.ofBodies exRaw1) :=
        potential_ofBodies exPotEnv exRaw "fortran" rfl (Or.inl ⟨rfl, rfl⟩)
      have e2 : center (Galaxy.ofBodies exRaw1) = .ok (Galaxy.ofBodies exRaw2) :=
        center_ofBodies exRaw1 rfl (exRaw1.stars.headD (starAt (dv 0 0 0) (dv 0 0 0)))
          (by decide +kernel)
      have e3 := starAlign_ofBodies exRaw2 none rfl
      show (potential exPotEnv (Galaxy.ofBodies exRaw) "fortran" >>= fun g1 =>
        center g1 >>= fun g2 => starAlign g2 none) = _
      rw [e1, Py.ok_bind, e2, Py.ok_bind]
      exact e3
    · intro a ha
      apply notTiny_of
      revert a
      decide +kernel

end GChop
