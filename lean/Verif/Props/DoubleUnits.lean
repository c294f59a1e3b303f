import Verif.Lemmas.FltScale
import Verif.Lemmas.FltOrder
import Verif.Props.Invariance
import Verif.Props.DoubleSign

/-!
# C88: units that differ by powers of two, in double precision

In exact arithmetic no unit matters (C28, C64).  In double precision the circularities are the same,
bit for bit, when the units differ by powers of two and no product underflows; for other factors they
are not.
-/

set_option linter.unusedSectionVars false

namespace GChop
open Pd

section
variable {F : Type} [Num F]

/-- what `jcirc` needs to know about two numbers that differ by the units -/
structure UnitRel (R : F → F → Prop) : Prop where
  isNaN : ∀ {a b}, R a b → Num.isNaN b = Num.isNaN a
  lt : ∀ {a b c d}, R a b → R c d → (b <. d) = (a <. c)
  abs : ∀ {a b}, R a b → R (Num.abs a) (Num.abs b)
  div : ∀ {a b c d}, R a b → R c d → b /. d = a /. c

theorem UnitRel.min2 {R : F → F → Prop} (h : UnitRel R) {a b c d : F} (h1 : R a b) (h2 : R c d) :
    R (Np.min2 a c) (Np.min2 b d) := by
  unfold Np.min2
  rw [h.isNaN h1, h.isNaN h2, h.lt h2 h1]
  split
  · exact h1
  · split
    · exact h2
    · split
      · exact h2
      · exact h1

theorem UnitRel.max2 {R : F → F → Prop} (h : UnitRel R) {a b c d : F} (h1 : R a b) (h2 : R c d) :
    R (Np.max2 a c) (Np.max2 b d) := by
  unfold Np.max2
  rw [h.isNaN h1, h.isNaN h2, h.lt h1 h2]
  split
  · exact h1
  · split
    · exact h2
    · split
      · exact h2
      · exact h1

theorem foldl_units {R : F → F → Prop} {op : F → F → F}
    (hop : ∀ {a b c d}, R a b → R c d → R (op a c) (op b d)) {α : Type} (l : List α) (f g : α → F)
    (h : ∀ a ∈ l, R (f a) (g a)) {x y : F} (hxy : R x y) :
    R ((l.map f).foldl op x) ((l.map g).foldl op y) := by
  induction l generalizing x y with
  | nil => exact hxy
  | cons a l ih =>
    exact ih (fun b hb => h b (List.mem_cons_of_mem _ hb)) (hop hxy (h a List.mem_cons_self))

/-- the outcomes of `np.min` on two related columns -/
theorem UnitRel.amin {R : F → F → Prop} (hR : UnitRel R) {α : Type} (l : List α) (f g : α → F)
    (h : ∀ a ∈ l, R (f a) (g a)) :
    (Np.amin (l.map f) = .error .valueError ∧ Np.amin (l.map g) = .error .valueError) ∨
      ∃ x y, Np.amin (l.map f) = .ok x ∧ Np.amin (l.map g) = .ok y ∧ R x y := by
  cases l with
  | nil => exact Or.inl ⟨rfl, rfl⟩
  | cons a l =>
    exact Or.inr ⟨_, _, rfl, rfl, foldl_units hR.min2 l f g
      (fun b hb => h b (List.mem_cons_of_mem _ hb)) (h a List.mem_cons_self)⟩

/-- the outcomes of `np.max` on two related columns -/
theorem UnitRel.amax {R : F → F → Prop} (hR : UnitRel R) {α : Type} (l : List α) (f g : α → F)
    (h : ∀ a ∈ l, R (f a) (g a)) :
    (Np.amax (l.map f) = .error .valueError ∧ Np.amax (l.map g) = .error .valueError) ∨
      ∃ x y, Np.amax (l.map f) = .ok x ∧ Np.amax (l.map g) = .ok y ∧ R x y := by
  cases l with
  | nil => exact Or.inl ⟨rfl, rfl⟩
  | cons a l =>
    exact Or.inr ⟨_, _, rfl, rfl, foldl_units hR.max2 l f g
      (fun b hb => h b (List.mem_cons_of_mem _ hb)) (h a List.mem_cons_self)⟩

/-- the same profile, normalisations that differ by the units -/
structure NormRel (RE RJ : F → F → Prop) (n n' : CircNorm F) : Prop where
  eMin : RE n.eMin n'.eMin
  jzMax : RJ n.jzMax n'.jzMax
  jrMax : RJ n.jrMax n'.jrMax
  pts : n'.pts = n.pts

/-- A change of every particle that changes the units of the energies and of the angular momenta
does not change the result. -/
theorem jcirc_units [NumOrd F] {RE RJ : F → F → Prop} (hE : UnitRel RE) (hJ : UnitRel RJ)
    (hbd : ∀ {a b}, RE a b → isBound b = isBound a) (env : CircEnv F) (b : BGalaxy F)
    (f : Body F → Body F) (he : ∀ a ∈ b.all, RE a.energy (f a).energy)
    (hz : ∀ a ∈ b.all, RJ a.jz (f a).jz) (hr : ∀ a ∈ b.all, RJ a.jr (f a).jr) (bin0 bin1 : F) :
    jcirc env (Galaxy.ofBodies (b.mapBodies f)) bin0 bin1 =
      jcirc env (Galaxy.ofBodies b) bin0 bin1 := by
  cases hp : b.hasPot with
  | false => rw [jcirc_noPot env b hp, jcirc_noPot env (b.mapBodies f) hp]
  | true =>
    have hb : ∀ a ∈ b.all, isBound (f a).energy = isBound a.energy := fun a ha => hbd (he a ha)
    have hall : (b.mapBodies f).all = b.all.map f := by
      simp [BGalaxy.mapBodies, BGalaxy.all]
    have hbound : (b.mapBodies f).bound = b.bound.map f := by
      unfold BGalaxy.bound
      rw [hall, List.filter_map]
      congr 1
      exact List.filter_congr fun a ha => hb a ha
    have hmem : ∀ a ∈ b.bound, a ∈ b.all := fun a ha => (List.mem_filter.1 ha).1
    have hst : ∀ a ∈ b.stars, a ∈ b.all := fun a ha => by simp [BGalaxy.all, ha]
    have e4 : (∃ e, circNorm env b bin0 bin1 = .error e ∧
          circNorm env (b.mapBodies f) bin0 bin1 = .error e) ∨
        ∃ n n', circNorm env b bin0 bin1 = .ok n ∧ circNorm env (b.mapBodies f) bin0 bin1 = .ok n' ∧
          NormRel RE RJ n n' := by
      unfold circNorm
      rw [hbound]
      simp only [List.map_map, Function.comp_def]
      rcases hE.amin b.bound Body.energy (fun a => (f a).energy) (fun a ha => he a (hmem a ha)) with
        ⟨h1, h2⟩ | ⟨x, y, h1, h2, hxy⟩
      · exact Or.inl ⟨_, by rw [h1]; rfl, by rw [h2]; rfl⟩
      rw [h1, h2]
      simp only [Py.ok_bind]
      rcases hJ.amax b.bound (fun a => Num.abs a.jz) (fun a => Num.abs (f a).jz)
        (fun a ha => hJ.abs (hz a (hmem a ha))) with ⟨h3, h4⟩ | ⟨u, v, h3, h4, huv⟩
      · exact Or.inl ⟨_, by rw [h3]; rfl, by rw [h4]; rfl⟩
      rw [h3, h4]
      simp only [Py.ok_bind]
      cases h5 : energyBins bin0 bin1 with
      | error e => exact Or.inl ⟨e, rfl, rfl⟩
      | ok aux =>
      have p1 : b.bound.map (fun a => (f a).energy /. Num.abs y)
          = b.bound.map fun a => a.energy /. Num.abs x :=
        List.map_congr_left fun a ha => hE.div (he a (hmem a ha)) (hE.abs hxy)
      have p2 : b.bound.map (fun a => (f a).jz /. v) = b.bound.map fun a => a.jz /. u :=
        List.map_congr_left fun a ha => hJ.div (hz a (hmem a ha)) huv
      simp only [Py.ok_bind, p1, p2]
      cases profile env aux (b.bound.map fun a => a.energy /. Num.abs x)
        (b.bound.map fun a => a.jz /. u) with
      | error e => exact Or.inl ⟨e, rfl, rfl⟩
      | ok pts =>
      simp only [Py.ok_bind]
      rcases hJ.amax b.bound (fun a => Num.abs a.jr) (fun a => Num.abs (f a).jr)
        (fun a ha => hJ.abs (hr a (hmem a ha))) with ⟨h6, h7⟩ | ⟨s, t, h6, h7, hst⟩
      · exact Or.inl ⟨_, by rw [h6]; rfl, by rw [h7]; rfl⟩
      rw [h6, h7]
      exact Or.inr ⟨_, _, rfl, rfl, hxy, huv, hst, rfl⟩
    rw [jcirc_ofBodies env b hp, jcirc_ofBodies env (b.mapBodies f) hp]
    rcases e4 with ⟨e, h1, h2⟩ | ⟨n, n', h1, h2, hn⟩
    · rw [h1, h2]; rfl
    · rw [h1, h2]
      have hstars : (b.mapBodies f).stars = b.stars.map f := rfl
      have ht : trueFirst (fun a => isBound a.energy) (b.stars.map f)
          = trueFirst (fun a => isBound a.energy) b.stars :=
        trueFirst_map fun a ha => hb a (hst a ha)
      simp only [Except.bind, hstars, ht]
      split
      · congr 1
        have q1 : ∀ a ∈ b.stars, n'.e (f a) = n.e a := fun a ha =>
          hE.div (he a (hst a ha)) (hE.abs hn.eMin)
        have q2 : ∀ a ∈ b.stars, n'.jz (f a) = n.jz a := fun a ha =>
          hJ.div (hz a (hst a ha)) hn.jzMax
        have q3 : ∀ a ∈ b.stars, n'.eps env (f a) = n.eps env a := by
          intro a ha
          simp only [CircNorm.eps, CircNorm.jc, q1 a ha, q2 a ha, hn.pts]
        have q4 : ∀ a ∈ b.stars, n'.epsR env (f a) = n.epsR env a := by
          intro a ha
          simp only [CircNorm.epsR, CircNorm.jc, q1 a ha, hn.pts, hJ.div (hr a (hst a ha)) hn.jrMax]
        unfold circResult
        simp only [JCirc.mk.injEq, List.map_map, hn.pts, and_true]
        refine ⟨?_, ?_, ?_, ?_⟩
        · refine List.map_congr_left fun a ha => ?_
          simp only [Function.comp_apply, hb a (hst a ha), q3 a ha, q1 a ha]
        · rw [List.filter_map, List.map_map]
          have : b.stars.filter ((fun a => isBound a.energy) ∘ f)
              = b.stars.filter fun a => isBound a.energy :=
            List.filter_congr fun a ha => hb a (hst a ha)
          rw [this]
          refine List.map_congr_left fun a ha => ?_
          have ha := (List.mem_filter.1 ha).1
          simp only [Function.comp_apply, q3 a ha, q2 a ha]
        · refine List.map_congr_left fun a ha => ?_
          simp only [Function.comp_apply, hb a (hst a ha), q3 a ha]
        · refine List.map_congr_left fun a ha => ?_
          simp only [Function.comp_apply, hb a (hst a ha), q3 a ha, q4 a ha]
      · rfl

end

open Flt

theorem unitRel_scaled {fmt : Fmt} (k : ℤ) : UnitRel (Scaled (fmt := fmt) k) :=
  ⟨Scaled.isNaN, Scaled.lt, Scaled.abs, Scaled.div⟩

theorem Flt.Scaled.isBound {fmt : Fmt} {k : ℤ} {a b : Flt fmt} (h : Scaled k a b) :
    isBound b = isBound a := by
  have hk : (0 : ℚ) < 2 ^ k := zpow_pos (by norm_num) _
  have e : ∀ c : Flt fmt, GChop.isBound c
      = (Ext.le (Flt.toExt c) (.fin 0) && !Ext.eq (Flt.toExt c) .ninf) := by
    intro c
    show (Ext.le (Flt.toExt c) (Flt.toExt (ofExact false 0)) && _) = _
    rw [toExt_zero]
    rfl
  rw [e, e, h.toExt]
  cases Flt.toExt a with
  | fin x =>
    have : 2 ^ k * x ≤ 0 ↔ x ≤ 0 := by
      rw [mul_nonpos_iff]; simp [hk.le, hk.not_ge]
    simp only [Ext.le, this]
    rfl
  | pinf => rfl
  | ninf => rfl
  | nan => rfl

/-- the same particle in other units: lengths times `2^i`, velocities times `2^j`, potential times
`2^(2j)` -/
def Body.rescale2 (i j : ℤ) (a : Body Float64) : Body Float64 :=
  { a with
    x := Num.ofRat (2 ^ i) *. a.x, y := Num.ofRat (2 ^ i) *. a.y, z := Num.ofRat (2 ^ i) *. a.z
    vx := Num.ofRat (2 ^ j) *. a.vx, vy := Num.ofRat (2 ^ j) *. a.vy
    vz := Num.ofRat (2 ^ j) *. a.vz, pot := Num.ofRat (2 ^ (2 * j)) *. a.pot }

/-- Coordinates and velocities are zero or between `2^-200` and `2^200` in both units, the potential
is zero, between `2^-400` and `2^400` in both units, or not a finite number. -/
structure Body.Tame (i j : ℤ) (a : Body Float64) : Prop where
  x : InRange i 200 a.x
  y : InRange i 200 a.y
  z : InRange i 200 a.z
  vx : InRange j 200 a.vx
  vy : InRange j 200 a.vy
  vz : InRange j 200 a.vz
  pot : InRange (2 * j) 400 a.pot ∨ Num.isFinite a.pot = false

theorem nrm64 : Fmt.binary64.nrm = -1022 := by decide
theorem emax64 : Fmt.binary64.emax = 1023 := rfl
theorem prec64 : (Fmt.binary64.prec : ℤ) - 1 = 52 := rfl

theorem pair_coord {k : ℤ} {c : Float64} (h : InRange k 200 c) (h1 : -400 ≤ k) (h2 : k ≤ 400) :
    Pair k (-252) 200 c (Num.ofRat (2 ^ k) *. c) := by
  have := h.pair (by rw [nrm64]; omega) (by rw [emax64]; omega)
    (by rw [nrm64, prec64]; omega) (by omega) (by rw [emax64]; omega)
  rw [prec64] at this
  exact this

theorem pair_diff {i j : ℤ} {a a' b b' c c' d d' : Float64} (ha : Pair i (-252) 200 a a')
    (hb : Pair j (-252) 200 b b') (hc : Pair i (-252) 200 c c') (hd : Pair j (-252) 200 d d') :
    Pair (i + j) (-504) 401 ((a *. b) -. (c *. d)) ((a' *. b') -. (c' *. d')) := by
  have h1 := ha.mul hb (by rw [nrm64]; omega) (by rw [nrm64]; omega) (by rw [emax64]; omega)
  have h2 := hc.mul hd (by rw [nrm64]; omega) (by rw [nrm64]; omega) (by rw [emax64]; omega)
  exact h1.sub h2 (by rw [nrm64]; omega) (by rw [nrm64]; omega) (by rw [emax64]; omega)

theorem Body.Tame.jx {i j : ℤ} {a : Body Float64} (h : a.Tame i j) (h1 : |i| ≤ 400) (h2 : |j| ≤ 400) :
    Pair (i + j) (-504) 401 a.jx (a.rescale2 i j).jx := by
  rw [abs_le] at h1 h2
  exact pair_diff (pair_coord h.y h1.1 h1.2) (pair_coord h.vz h2.1 h2.2) (pair_coord h.z h1.1 h1.2)
    (pair_coord h.vy h2.1 h2.2)

theorem Body.Tame.jy {i j : ℤ} {a : Body Float64} (h : a.Tame i j) (h1 : |i| ≤ 400) (h2 : |j| ≤ 400) :
    Pair (i + j) (-504) 401 a.jy (a.rescale2 i j).jy := by
  rw [abs_le] at h1 h2
  exact pair_diff (pair_coord h.z h1.1 h1.2) (pair_coord h.vx h2.1 h2.2) (pair_coord h.x h1.1 h1.2)
    (pair_coord h.vz h2.1 h2.2)

theorem Body.Tame.jz {i j : ℤ} {a : Body Float64} (h : a.Tame i j) (h1 : |i| ≤ 400) (h2 : |j| ≤ 400) :
    Pair (i + j) (-504) 401 a.jz (a.rescale2 i j).jz := by
  rw [abs_le] at h1 h2
  exact pair_diff (pair_coord h.x h1.1 h1.2) (pair_coord h.vy h2.1 h2.2) (pair_coord h.y h1.1 h1.2)
    (pair_coord h.vx h2.1 h2.2)

theorem Body.Tame.jr {i j : ℤ} {a : Body Float64} (h : a.Tame i j) (h1 : |i| ≤ 400) (h2 : |j| ≤ 400) :
    Scaled (i + j) a.jr (a.rescale2 i j).jr := by
  have hx := h.jx h1 h2
  have hy := h.jy h1 h2
  have sx := hx.mul hx (by rw [nrm64]; omega) (by rw [nrm64]; omega) (by rw [emax64]; omega)
  have sy := hy.mul hy (by rw [nrm64]; omega) (by rw [nrm64]; omega) (by rw [emax64]; omega)
  have s := sx.add sy (by rw [nrm64]; omega) (by rw [nrm64]; omega) (by rw [emax64]; omega)
  unfold Body.jr Num.sq
  obtain ⟨t, m, m', e1, e2, -⟩ := s.dest
  have hpl := (plus_sq a.jx).add (plus_sq a.jy)
  unfold Num.sq at hpl
  rw [e1] at hpl s
  have ht : t = false := by
    rcases hpl with h | h | ⟨n, h⟩
    · cases h
    · cases h
    · cases h; rfl
  subst ht
  rw [e2] at s
  rw [e1, e2]
  rw [show i + j + (i + j) = 2 * (i + j) by ring] at s
  exact (s.sqrt (by rw [nrm64]; omega) (by rw [nrm64]; omega) (by rw [emax64]; omega)).scaled

theorem grid_half : Grid (-1) 0 (Num.ofRat (1/2) : Float64) := by
  exact grid_ofExact (n := 1) (by norm_num) (by norm_num) (by rw [nrm64]; omega) (by rw [emax64]; omega)

theorem Body.Tame.energy {i j : ℤ} {a : Body Float64} (h : a.Tame i j) (h2 : |j| ≤ 400) :
    Scaled (2 * j) a.energy (a.rescale2 i j).energy := by
  rw [abs_le] at h2
  have hsq : ∀ c : Float64, InRange j 200 c →
      Pair (2 * j) (-504) 400 (Num.sq c) (Num.sq (Num.ofRat (2 ^ j) *. c)) := by
    intro c hc
    have p := pair_coord hc h2.1 h2.2
    have := p.mul p (by rw [nrm64]; omega) (by rw [nrm64]; omega) (by rw [emax64]; omega)
    rwa [show j + j = 2 * j by ring] at this
  have k1 := (hsq _ h.vx).add (hsq _ h.vy) (by rw [nrm64]; omega) (by rw [nrm64]; omega)
    (by rw [emax64]; omega)
  have k2 := k1.add ((hsq _ h.vz).weaken le_rfl (by omega)) (by rw [nrm64]; omega)
    (by rw [nrm64]; omega) (by rw [emax64]; omega)
  have half : Pair 0 (-1) 0 (Num.ofRat (1/2) : Float64) (Num.ofRat (1/2)) :=
    ⟨by obtain ⟨s, m, e, -⟩ := grid_half; rw [e]; exact ⟨rfl, by simp⟩, grid_half, grid_half⟩
  have kin := half.mul k2 (by rw [nrm64]; omega) (by rw [nrm64]; omega) (by rw [emax64]; omega)
  rw [zero_add] at kin
  have kin' : Pair (2 * j) (-505) 402 a.kinetic (a.rescale2 i j).kinetic := kin
  show Scaled (2 * j) (a.kinetic +. a.pot)
    ((a.rescale2 i j).kinetic +. (Num.ofRat (2 ^ (2 * j)) *. a.pot))
  rcases h.pot with hp | hp
  · have hp' := hp.pair (by rw [nrm64]; omega) (by rw [emax64]; omega)
      (by rw [nrm64, prec64]; omega) (by omega) (by rw [emax64]; omega)
    rw [prec64] at hp'
    exact (kin'.add (hp'.weaken (by omega) (by omega)) (by rw [nrm64]; omega) (by rw [nrm64]; omega)
      (by rw [emax64]; omega)).scaled
  · obtain ⟨s, m, m', e1, e2, -⟩ := kin'.dest
    rw [e1, e2]
    obtain ⟨u, hu, hpow⟩ := ofRat_pow (fmt := Fmt.binary64) (k := 2 * j) (by rw [nrm64]; omega)
      (by rw [emax64]; omega)
    have hu0 : u.val ≠ 0 := by rw [hu]; exact (zpow_pos (by norm_num) _).ne'
    rw [hpow]
    cases hpot : a.pot with
    | fin t n => rw [hpot] at hp; cases hp
    | inf t =>
      show Scaled _ (Flt.add (fin s m) (inf t)) (Flt.add (fin s m') (Flt.mul (fin false u) (inf t)))
      simp only [Flt.mul, hu0, if_false, Flt.add]
      show t = (false != t)
      simp
    | nan => exact trivial

/-- C88: circularities in units that differ by powers of two are the same double precision numbers
(and one computation raises exactly when the other one does). -/
theorem C88_circularity (env : CircEnv Float64) (b : BGalaxy Float64) {i j : ℤ} (hi : |i| ≤ 400)
    (hj : |j| ≤ 400) (h : ∀ a ∈ b.all, a.Tame i j) (bin0 bin1 : Float64) :
    jcirc env (Galaxy.ofBodies (b.mapBodies (Body.rescale2 i j))) bin0 bin1 =
      jcirc env (Galaxy.ofBodies b) bin0 bin1 :=
  jcirc_units (unitRel_scaled (2 * j)) (unitRel_scaled (i + j)) Scaled.isBound env b _
    (fun a ha => (h a ha).energy hj) (fun a ha => ((h a ha).jz hi hj).scaled)
    (fun a ha => (h a ha).jr hi hj) bin0 bin1

/-- C88: nor does any decomposition by circularity attributes change. -/
theorem C88_decompose (env : CircEnv Float64) (cbins : Float64 × Float64) (dec : Decomposer Float64)
    (ha : ∀ a ∈ dec.attributes, a ∈ circularityAttributes) (b : BGalaxy Float64) {i j : ℤ}
    (hi : |i| ≤ 400) (hj : |j| ≤ 400) (h : ∀ a ∈ b.all, a.Tame i j) :
    decompose env cbins dec (Galaxy.ofBodies (b.mapBodies (Body.rescale2 i j))) =
      decompose env cbins dec (Galaxy.ofBodies b) := by
  apply decompose_congr env cbins dec _ _ ha (C88_circularity env b hi hj h cbins.1 cbins.2)
  · simp [Galaxy.ofBodies, ParticleSet.len, ParticleSet.ofBodies, BGalaxy.dmSet, BGalaxy.mapBodies]
  · simp [Galaxy.ofBodies, ParticleSet.len, ParticleSet.ofBodies, BGalaxy.gSet, BGalaxy.mapBodies]

/-! ## Other factors -/

/-- a star of mass 1 at `(x, 0, 0)` with velocity `(0, 1, 0)` and energy -1 -/
def dblCircle (x : Float64) : Body Float64 :=
  ⟨Num.ofRat 1, x, Num.ofRat 0, Num.ofRat 0, Num.ofRat 0, Num.ofRat 1, Num.ofRat 0, Num.ofRat (-3/2)⟩

/-- one star at distance 1 and one at distance 0.1 -/
def exTenth : BGalaxy Float64 where
  stars := [dblCircle (Num.ofRat 1), dblCircle (Num.ofRat (1/10))]
  dm := []
  gas := []
  hasPot := true
  softS := Num.ofRat 0
  softDm := Num.ofRat 0
  softG := Num.ofRat 0

/-- the same galaxy with lengths in another unit -/
def Body.stretch (c : Float64) (a : Body Float64) : Body Float64 :=
  { a with x := c *. a.x, y := c *. a.y, z := c *. a.z }

/-- C88 (negation for other factors): with lengths multiplied by three `JThreshold(eps_cut=0.1)` gives
the second star another label. -/
theorem C88_other_factor : (sortEnv (F := Float64)).OK ∧
    (decompose sortEnv defaultCbin (jThreshold (fun _ => 7) (Num.ofRat (1/10)))
      (Galaxy.ofBodies exTenth)).toOption.map Components.labels = some [some 1, some 0] ∧
    (decompose sortEnv defaultCbin (jThreshold (fun _ => 7) (Num.ofRat (1/10)))
      (Galaxy.ofBodies (exTenth.mapBodies (Body.stretch (Num.ofRat 3))))).toOption.map
        Components.labels = some [some 1, some 1] :=
  ⟨sortEnv_ok, by decide +kernel, by decide +kernel⟩

/-- C88 (negation without the bounds): when the angular momenta underflow no star gets a label. -/
theorem C88_underflow :
    (decompose sortEnv defaultCbin (jThreshold (fun _ => 7) (Num.ofRat (1/10)))
      (Galaxy.ofBodies (exTenth.mapBodies (Body.rescale2 (-1000) (-100))))).toOption.map
        Components.labels = some [none, none] := by
  decide +kernel

/-- a computable form of `InRange` -/
def inRangeB (k p : ℤ) : Float64 → Bool
  | fin _ m => decide (m.val = 0 ∨ (2 ^ (-p) ≤ m.val ∧ m.val ≤ 2 ^ p ∧ 2 ^ (-p) ≤ 2 ^ k * m.val ∧
      2 ^ k * m.val ≤ 2 ^ p))
  | _ => false

theorem inRange_of {k p : ℤ} {a : Float64} (h : inRangeB k p a = true) : InRange k p a := by
  cases a with
  | fin s m => exact ⟨s, m, rfl, by simpa [inRangeB] using h⟩
  | inf s => cases h
  | nan => cases h

/-- the hypotheses of `C88_decompose` hold for the galaxy of the counterexample and powers of two:
lengths times 32, velocities divided by 128 -/
example : ∀ a ∈ exTenth.all, a.Tame 5 (-7) := by
  intro a ha
  have h : a = dblCircle (Num.ofRat 1) ∨ a = dblCircle (Num.ofRat (1/10)) := by
    simpa [BGalaxy.all, exTenth] using ha
  rcases h with rfl | rfl <;>
    exact ⟨inRange_of (by decide +kernel), inRange_of (by decide +kernel), inRange_of (by decide +kernel),
      inRange_of (by decide +kernel), inRange_of (by decide +kernel), inRange_of (by decide +kernel),
      Or.inl (inRange_of (by decide +kernel))⟩

end GChop
