import Verif.Lemmas.Quantity
import Verif.Lemmas.Data
import Verif.Lemmas.CircExact

/-!
# C92: particles given in other units

A caller may give masses, positions, velocities and potentials as quantities in any units.  The galaxy
that results is, for everything that computes with it, the galaxy of the converted numbers; a unit of
another kind is refused with `ValueError`; and in exact arithmetic two descriptions of the same particles
in different units cannot be told apart.  The energies and angular momenta are in the documented units,
with one exception: `potential_energy_` is in the unit the caller used.
-/

set_option linter.unusedSectionVars false

namespace GChop
open Pd

section any
variable {U F : Type} [Num F]

theorem mkgalaxy_numbers {env : UnitEnv U F} (h : env.OK) {s d g : QArgs U F}
    (ha : UnitsAccepted env s d g) :
    QGalaxy.arr env <$> qmkgalaxy env s d g =
      mkgalaxy (s.numbers env) (d.numbers env) (g.numbers env) := arr_qmkgalaxy h ha

theorem qset_new_err {env : UnitEnv U F} (h : env.OK) {t : PType} {a : QArgs U F} {e : PyErr}
    (he : QSet.new env t a = .error e) : e = .valueError := by
  by_cases ha : a.accepted env = true
  · have := arr_qset_new h t a ha
    rw [he] at this
    exact ParticleSet.new_err this.symm
  · rw [qset_new_rejected t a (by simpa using ha)] at he
    cases he
    rfl

theorem mkgalaxy_rejected {env : UnitEnv U F} (h : env.OK) {s d g : QArgs U F}
    (ha : ¬ UnitsAccepted env s d g) : qmkgalaxy env s d g = .error .valueError := by
  unfold qmkgalaxy
  cases hs : QSet.new env .stars s with
  | error e => rw [qset_new_err h hs]; rfl
  | ok ps =>
    cases hd : QSet.new env .darkMatter d with
    | error e => rw [qset_new_err h hd]; rfl
    | ok pd =>
      cases hg : QSet.new env .gas g with
      | error e => rw [qset_new_err h hg]; rfl
      | ok pg => exact absurd ⟨accepted_of_new hs, accepted_of_new hd, accepted_of_new hg⟩ ha

/-- The value can be given for an attribute with default unit `d`: an array, a quantity without
dimension or a quantity in an equivalent unit. -/
def Given.Fits (env : UnitEnv U F) (d : U) : Given U F → Prop
  | .array _ => True
  | .quantity q => env.dimensionless q.unit = true ∨ env.equiv q.unit d = true

/-- its numbers in the unit `d` -/
def Given.read (env : UnitEnv U F) (d : U) : Given U F → List F
  | .array l => l
  | .quantity q =>
    if env.dimensionless q.unit = true then q.vals else q.vals.map (env.conv q.unit d)

/-- masses, positions, velocities and potentials in units of mass, length, velocity and squared
velocity -/
structure QArgs.Fits (env : UnitEnv U F) (a : QArgs U F) : Prop where
  m : a.m.Fits env env.msun
  x : a.x.Fits env env.kpc
  y : a.y.Fits env env.kpc
  z : a.z.Fits env env.kpc
  vx : a.vx.Fits env env.kms
  vy : a.vy.Fits env env.kms
  vz : a.vz.Fits env env.kms
  potential : ∀ p, a.potential = some p → p.Fits env env.kms2

/-- the particles in Msun, kpc, km/s and (km/s)^2 -/
def QArgs.read (env : UnitEnv U F) (a : QArgs U F) : PArgs F :=
  ⟨a.m.read env env.msun, a.x.read env env.kpc, a.y.read env env.kpc, a.z.read env env.kpc,
    a.vx.read env env.kms, a.vy.read env env.kms, a.vz.read env env.kms,
    a.potential.map (·.read env env.kms2), a.softening⟩

theorem Given.accepted_iff {env : UnitEnv U F} (h : env.OK) (d : U) (i : Given U F) :
    i.accepted env d = true ↔ i.Fits env d := by
  cases i with
  | array l => simp [Given.accepted, Given.attach, Given.Fits, h.equiv_self]
  | quantity q =>
    by_cases hq : env.dimensionless q.unit = true
    · simp [Given.accepted, Given.attach, Given.Fits, hq, h.equiv_self]
    · simp [Given.accepted, Given.attach, Given.Fits, hq]

theorem Given.numbers_eq_read {env : UnitEnv U F} (h : env.OK) (d : U) (i : Given U F) :
    i.numbers env d = i.read env d := by
  cases i with
  | array l => exact numbers_array h l d
  | quantity q =>
    by_cases hq : env.dimensionless q.unit = true
    · simp only [Given.numbers, Given.attach, Given.read, hq, if_true]
      exact toValue_self h _ _
    · simp only [Given.numbers, Given.attach, Given.read, hq]
      rfl

theorem QArgs.accepted_iff {env : UnitEnv U F} (h : env.OK) (a : QArgs U F) :
    a.accepted env = true ↔ a.Fits env := by
  simp only [QArgs.accepted, Bool.and_eq_true, Given.accepted_iff h]
  constructor
  · rintro ⟨⟨⟨⟨⟨⟨⟨h1, h2⟩, h3⟩, h4⟩, h5⟩, h6⟩, h7⟩, h8⟩
    refine ⟨h1, h2, h3, h4, h5, h6, h7, fun p hp => ?_⟩
    rw [hp] at h8
    exact (Given.accepted_iff h _ p).1 h8
  · rintro ⟨h1, h2, h3, h4, h5, h6, h7, h8⟩
    refine ⟨⟨⟨⟨⟨⟨⟨h1, h2⟩, h3⟩, h4⟩, h5⟩, h6⟩, h7⟩, ?_⟩
    cases hp : a.potential with
    | none => rfl
    | some p => exact (Given.accepted_iff h _ p).2 (h8 p hp)

theorem QArgs.numbers_eq_read {env : UnitEnv U F} (h : env.OK) (a : QArgs U F) :
    a.numbers env = a.read env := by
  simp only [QArgs.numbers, QArgs.read, Given.numbers_eq_read h]

/-- C92: `mkgalaxy` of quantities in units of the right kind is `mkgalaxy` of their numbers in the
default units: the same galaxy or the same error. -/
theorem C92_mkgalaxy {env : UnitEnv U F} (h : env.OK) {s d g : QArgs U F}
    (hs : s.Fits env) (hd : d.Fits env) (hg : g.Fits env) :
    QGalaxy.arr env <$> qmkgalaxy env s d g = mkgalaxy (s.read env) (d.read env) (g.read env) := by
  rw [← QArgs.numbers_eq_read h, ← QArgs.numbers_eq_read h, ← QArgs.numbers_eq_read h]
  exact mkgalaxy_numbers h ⟨(QArgs.accepted_iff h s).2 hs, (QArgs.accepted_iff h d).2 hd,
    (QArgs.accepted_iff h g).2 hg⟩

/-- C92: a quantity whose unit is of another kind than that of its attribute is refused with
`ValueError`, whatever the other arguments are. -/
theorem C92_rejected {env : UnitEnv U F} (h : env.OK) {s d g : QArgs U F}
    (ha : ¬ (s.Fits env ∧ d.Fits env ∧ g.Fits env)) :
    qmkgalaxy env s d g = .error .valueError := by
  apply mkgalaxy_rejected h
  rintro ⟨h1, h2, h3⟩
  exact ha ⟨(QArgs.accepted_iff h s).1 h1, (QArgs.accepted_iff h d).1 h2, (QArgs.accepted_iff h g).1 h3⟩

/-- `center` reads the particles in the default units, and the galaxy it builds from a mixture of the
caller's quantities and its own arrays is the centred galaxy. -/
theorem C92_center {env : UnitEnv U F} (h : env.OK) {g : QGalaxy U F} (hg : g.Proper env) :
    QGalaxy.arr env <$> qcenter env g = center (g.arr env) := by
  unfold qcenter center
  rw [show (g.arr env).hasPotential = g.hasPotential from rfl]
  split
  · rfl
  cases (g.arr env).toDataframe none (some ["ptypev", "x", "y", "z", "potential"]) with
  | error e => rfl
  | ok df =>
  simp only [bind, Except.bind]
  cases df.numCol "potential" with
  | error e => rfl
  | ok pot =>
  simp only
  cases seriesArgmin pot with
  | error e => rfl
  | ok idx =>
  simp only
  cases df.iloc idx with
  | error e => rfl
  | ok row =>
  simp only
  cases subColumn df row "x" with
  | error e => rfl
  | ok x =>
  simp only
  cases subColumn df row "y" with
  | error e => rfl
  | ok y =>
  simp only
  cases subColumn df row "z" with
  | error e => rfl
  | ok z =>
  simp only
  cases df.col "ptypev" with
  | error e => rfl
  | ok types =>
  simp only
  rw [arr_rebuild h hg]
  · simp only [stripKw, List.map_cons, List.map_nil, strip_arr h]
  · intro a ha
    simp only [List.mem_cons, List.not_mem_nil, or_false] at ha
    rcases ha with rfl | rfl | rfl | rfl | rfl | rfl | rfl | rfl | rfl <;> exact entryOk_arr h _ _

/-- `star_align` likewise. -/
theorem C92_star_align {env : UnitEnv U F} (h : env.OK) {g : QGalaxy U F} (hg : g.Proper env)
    (rCut : Option F) :
    QGalaxy.arr env <$> qstarAlign env g rCut = starAlign (g.arr env) rCut := by
  unfold qstarAlign starAlign
  split
  · rfl
  rw [show (g.arr env).stars = g.stars.arr env from rfl,
    show (g.arr env).darkMatter = g.darkMatter.arr env from rfl,
    show (g.arr env).gas = g.gas.arr env from rfl]
  cases (g.stars.arr env).toDataframe
      (some ["m", "Jx", "Jy", "Jz", "x", "y", "z", "vx", "vy", "vz"]) with
  | error e => rfl
  | ok sdf =>
  simp only [bind, Except.bind]
  cases (g.darkMatter.arr env).toDataframe (some ["x", "y", "z", "vx", "vy", "vz"]) with
  | error e => rfl
  | ok ddf =>
  simp only
  cases (g.gas.arr env).toDataframe (some ["x", "y", "z", "vx", "vy", "vz"]) with
  | error e => rfl
  | ok gdf =>
  simp only
  cases sdf.numCol "m" with
  | error e => rfl
  | ok m =>
  simp only
  cases sdf.numCol "x" with
  | error e => rfl
  | ok x =>
  simp only
  cases sdf.numCol "y" with
  | error e => rfl
  | ok y =>
  simp only
  cases sdf.numCol "z" with
  | error e => rfl
  | ok z =>
  simp only
  cases sdf.numCol "Jx" with
  | error e => rfl
  | ok jx =>
  simp only
  cases sdf.numCol "Jy" with
  | error e => rfl
  | ok jy =>
  simp only
  cases sdf.numCol "Jz" with
  | error e => rfl
  | ok jz =>
  simp only
  cases rotateFrame (getRotMatrix m x y z jx jy jz rCut) sdf with
  | error e => rfl
  | ok s =>
  simp only
  cases rotateFrame (getRotMatrix m x y z jx jy jz rCut) ddf with
  | error e => rfl
  | ok d =>
  simp only
  cases rotateFrame (getRotMatrix m x y z jx jy jz rCut) gdf with
  | error e => rfl
  | ok q =>
  simp only
  rw [arr_rebuild h hg]
  · simp only [stripKw, List.map_cons, List.map_nil, strip_arr h]
  · intro a ha
    simp only [List.mem_cons, List.not_mem_nil, or_false] at ha
    rcases ha with rfl | rfl | rfl | rfl | rfl | rfl | rfl | rfl | rfl | rfl | rfl | rfl | rfl |
      rfl | rfl | rfl | rfl | rfl <;> exact entryOk_arr h _ _

/-- `potential` likewise; it adds quantities in `(km/s)**2`. -/
theorem C92_potential {S : Type} [Num S] {env : UnitEnv U F} (h : env.OK) (penv : PotEnv F S)
    {g : QGalaxy U F} (hg : g.Proper env) (backend : String) :
    QGalaxy.arr env <$> qpotential env penv g backend = potential penv (g.arr env) backend := by
  unfold qpotential potential
  rw [show (g.arr env).hasPotential = g.hasPotential from rfl,
    show (g.arr env).stars.m.length = g.stars.len by
      simp [QGalaxy.arr, QSet.arr, Quantity.toValue, QSet.len],
    show (g.arr env).darkMatter.m.length = g.darkMatter.len by
      simp [QGalaxy.arr, QSet.arr, Quantity.toValue, QSet.len]]
  split
  · rfl
  cases (g.arr env).toDataframe none none with
  | error e => rfl
  | ok df =>
  simp only [bind, Except.bind]
  cases df.numCol "x" with
  | error e => rfl
  | ok x =>
  simp only
  cases df.numCol "y" with
  | error e => rfl
  | ok y =>
  simp only
  cases df.numCol "z" with
  | error e => rfl
  | ok z =>
  simp only
  cases df.numCol "m" with
  | error e => rfl
  | ok m =>
  simp only
  cases df.numCol "softening" with
  | error e => rfl
  | ok soft =>
  simp only
  cases runBackend penv backend (x.map penv.down) (y.map penv.down) (z.map penv.down)
      (m.map penv.down) (penv.down (Pd.seriesMax soft)) with
  | error e => rfl
  | ok pot =>
  simp only
  have hst (l : List F) : Stored env env.kms2 (⟨l, env.kms2⟩ : Quantity U F) :=
    ⟨h.kms2, h.equiv_self _⟩
  have u1 : unitOf env "potential_s" = env.kms2 := rfl
  have u2 : unitOf env "potential_dm" = env.kms2 := rfl
  have u3 : unitOf env "potential_g" = env.kms2 := rfl
  rw [arr_rebuild h hg]
  · simp only [stripKw, List.map_cons, List.map_nil, QVal.strip, u1, u2, u3, (hst _).numbers,
      toValue_self h]
  · intro a ha
    simp only [List.mem_cons, List.not_mem_nil, or_false] at ha
    rcases ha with rfl | rfl | rfl <;>
    · intro i hi
      cases hi
      exact (hst _).accepted

theorem of_bind {α β : Type} {x : Py α} {f : α → Py β} {b : β} {P : Prop}
    (h : (x >>= f) = .ok b) (hf : ∀ a, f a = .ok b → P) : P := by
  cases x with
  | error e => cases h
  | ok a => exact hf a h

theorem proper_center {env : UnitEnv U F} (h : env.OK) {g G : QGalaxy U F}
    (hG : qcenter env g = .ok G) : G.Proper env := by
  unfold qcenter at hG
  split at hG
  · cases hG
  refine of_bind hG fun _ hG => ?_
  refine of_bind hG fun _ hG => ?_
  refine of_bind hG fun _ hG => ?_
  refine of_bind hG fun _ hG => ?_
  refine of_bind hG fun _ hG => ?_
  refine of_bind hG fun _ hG => ?_
  refine of_bind hG fun _ hG => ?_
  refine of_bind hG fun _ hG => ?_
  exact proper_of_kw h hG

theorem proper_potential {S : Type} [Num S] {env : UnitEnv U F} (h : env.OK) {penv : PotEnv F S}
    {g G : QGalaxy U F} {backend : String} (hG : qpotential env penv g backend = .ok G) :
    G.Proper env := by
  unfold qpotential at hG
  split at hG
  · cases hG
  refine of_bind hG fun _ hG => ?_
  refine of_bind hG fun _ hG => ?_
  refine of_bind hG fun _ hG => ?_
  refine of_bind hG fun _ hG => ?_
  refine of_bind hG fun _ hG => ?_
  refine of_bind hG fun _ hG => ?_
  refine of_bind hG fun _ hG => ?_
  exact proper_of_kw h hG

/-- from raw particles with units to an aligned galaxy -/
def qprepare {S : Type} [Num S] (env : UnitEnv U F) (penv : PotEnv F S) (backend : String)
    (rCut : Option F) (s d g : QArgs U F) : Py (QGalaxy U F) := do
  let G ← qmkgalaxy env s d g
  let G ← qpotential env penv G backend
  let G ← qcenter env G
  qstarAlign env G rCut

/-- from raw numbers to an aligned galaxy -/
def nprepare {S : Type} [Num S] (penv : PotEnv F S) (backend : String) (rCut : Option F)
    (s d g : PArgs F) : Py (Galaxy F) := do
  let G ← mkgalaxy s d g
  let G ← potential penv G backend
  let G ← center G
  starAlign G rCut

theorem prepare_numbers {S : Type} [Num S] {env : UnitEnv U F} (h : env.OK) (penv : PotEnv F S)
    (backend : String) (rCut : Option F) {s d g : QArgs U F} (ha : UnitsAccepted env s d g) :
    QGalaxy.arr env <$> qprepare env penv backend rCut s d g =
      nprepare penv backend rCut (s.numbers env) (d.numbers env) (g.numbers env) := by
  unfold qprepare nprepare
  rw [← mkgalaxy_numbers h ha]
  cases h1 : qmkgalaxy env s d g with
  | error e => rfl
  | ok G1 =>
  have p1 := proper_of_mk h h1
  simp only [Functor.map, Except.map, bind, Except.bind]
  rw [← C92_potential h penv p1 backend]
  cases h2 : qpotential env penv G1 backend with
  | error e => rfl
  | ok G2 =>
  have p2 := proper_potential h h2
  simp only [Functor.map, Except.map]
  rw [← C92_center h p2]
  cases h3 : qcenter env G2 with
  | error e => rfl
  | ok G3 => exact C92_star_align h (proper_center h h3) rCut

/-- C92: the whole preparation of a galaxy given in units of the right kind is the preparation of the
converted numbers. -/
theorem C92_prepare {S : Type} [Num S] {env : UnitEnv U F} (h : env.OK) (penv : PotEnv F S)
    (backend : String) (rCut : Option F) {s d g : QArgs U F} (hs : s.Fits env) (hd : d.Fits env)
    (hg : g.Fits env) :
    QGalaxy.arr env <$> qprepare env penv backend rCut s d g =
      nprepare penv backend rCut (s.read env) (d.read env) (g.read env) := by
  rw [← QArgs.numbers_eq_read h, ← QArgs.numbers_eq_read h, ← QArgs.numbers_eq_read h]
  exact prepare_numbers h penv backend rCut ⟨(QArgs.accepted_iff h s).2 hs,
    (QArgs.accepted_iff h d).2 hd, (QArgs.accepted_iff h g).2 hg⟩

/-- The kinetic and total energies and the angular momenta of every galaxy that can be built are in the
documented units, whatever units the particles were given in; potentials are in an equivalent unit. -/
theorem C92_documented_units {env : UnitEnv U F} (h : env.OK) {s d g : QArgs U F} {G : QGalaxy U F}
    (hG : qmkgalaxy env s d g = .ok G) (p : QSet U F)
    (hp : p = G.stars ∨ p = G.darkMatter ∨ p = G.gas) :
    p.kineticEnergy.unit = env.kms2 ∧ (∀ q, p.totalEnergy = some q → q.unit = env.kms2) ∧
      p.Jx.unit = env.kpckms ∧ p.Jy.unit = env.kpckms ∧ p.Jz.unit = env.kpckms ∧
      ∀ q, p.potential = some q → env.equiv q.unit env.kms2 = true := by
  have hpr := proper_of_mk h hG
  obtain ⟨hs, hd, hg, -⟩ := qmkgalaxy_ok hG
  rcases hp with rfl | rfl | rfl
  · obtain ⟨-, -, -, -, -, -, -, -, -, h1, h2, h3, h4, h5, -⟩ := qset_new_eq hs
    exact ⟨h1, h2, h3, h4, h5, fun q hq => (hpr.stars.potential q hq).2⟩
  · obtain ⟨-, -, -, -, -, -, -, -, -, h1, h2, h3, h4, h5, -⟩ := qset_new_eq hd
    exact ⟨h1, h2, h3, h4, h5, fun q hq => (hpr.darkMatter.potential q hq).2⟩
  · obtain ⟨-, -, -, -, -, -, -, -, -, h1, h2, h3, h4, h5, -⟩ := qset_new_eq hg
    exact ⟨h1, h2, h3, h4, h5, fun q hq => (hpr.gas.potential q hq).2⟩

end any

/-! ## Exact arithmetic -/

section exact
variable {K : Type} [Field K] [LinearOrder K] [IsStrictOrderedRing K] [FloorRing K] [HasSqrt K]

/-- a unit: exponents of mass, length and time, and its size in some fixed system -/
structure PhysUnit (K : Type) [Field K] [LinearOrder K] where
  dim : ℤ × ℤ × ℤ
  size : K
  pos : 0 < size

/-- units of a mass, a length and a velocity of given sizes, and their products; a number is converted
by multiplying with the quotient of the sizes -/
def physEnv (mass length velocity : {x : K // 0 < x}) : UnitEnv (PhysUnit K) (Ext K) where
  equiv u v := decide (u.dim = v.dim)
  conv u v x := Ext.fin (u.size / v.size) *. x
  dimensionless u := decide (u.dim = (0, 0, 0) ∧ u.size = 1)
  msun := ⟨(1, 0, 0), mass, mass.2⟩
  kpc := ⟨(0, 1, 0), length, length.2⟩
  kms := ⟨(0, 1, -1), velocity, velocity.2⟩
  kms2 := ⟨(0, 2, -2), velocity * velocity, mul_pos velocity.2 velocity.2⟩
  kpckms := ⟨(0, 2, -1), length * velocity, mul_pos length.2 velocity.2⟩

theorem physEnv_ok (a b c : {x : K // 0 < x}) : (physEnv a b c).OK where
  conv_self u x := by
    show scale (u.size / u.size) x = x
    rw [div_self u.pos.ne']
    cases x with
    | fin x => simp
    | nan => rfl
    | pinf => exact scale_pinf one_pos
    | ninf => exact scale_ninf one_pos
  equiv_self u := by simp [physEnv]
  msun := by simp [physEnv]
  kpc := by simp [physEnv]
  kms := by simp [physEnv]
  kms2 := by simp [physEnv]

/-- What a given attribute says, whatever its unit: the kind of quantity, and its numbers in the fixed
system.  An array has the default unit `d`. -/
def Given.physical (env : UnitEnv (PhysUnit K) (Ext K)) (d : PhysUnit K)
    (i : Given (PhysUnit K) (Ext K)) : (ℤ × ℤ × ℤ) × List (Ext K) :=
  ((i.attach env d).unit.dim, (i.attach env d).vals.map (Ext.fin (i.attach env d).unit.size *. ·))

/-- two descriptions of the same particles -/
structure SameParticles (env : UnitEnv (PhysUnit K) (Ext K)) (a b : QArgs (PhysUnit K) (Ext K)) :
    Prop where
  m : a.m.physical env env.msun = b.m.physical env env.msun
  x : a.x.physical env env.kpc = b.x.physical env env.kpc
  y : a.y.physical env env.kpc = b.y.physical env env.kpc
  z : a.z.physical env env.kpc = b.z.physical env env.kpc
  vx : a.vx.physical env env.kms = b.vx.physical env env.kms
  vy : a.vy.physical env env.kms = b.vy.physical env env.kms
  vz : a.vz.physical env env.kms = b.vz.physical env env.kms
  potential : a.potential.map (·.physical env env.kms2) = b.potential.map (·.physical env env.kms2)
  softening : a.softening = b.softening

theorem scale_scale {c d : K} (hc : 0 < c) (hd : 0 < d) (x : Ext K) :
    scale c (scale d x) = scale (c * d) x := by
  cases x with
  | fin x => simp [mul_assoc]
  | nan => rfl
  | pinf => rw [scale_pinf hd, scale_pinf hc, scale_pinf (mul_pos hc hd)]
  | ninf => rw [scale_ninf hd, scale_ninf hc, scale_ninf (mul_pos hc hd)]

theorem numbers_physical (a b c : {x : K // 0 < x}) (d : PhysUnit K)
    (i : Given (PhysUnit K) (Ext K)) :
    i.numbers (physEnv a b c) d =
      (i.physical (physEnv a b c) d).2.map (scale (1 / d.size)) := by
  simp only [Given.numbers, Quantity.toValue, Given.physical, List.map_map]
  refine List.map_congr_left fun x _ => ?_
  show scale _ x = scale _ (scale _ x)
  rw [scale_scale (one_div_pos.2 d.pos) (i.attach _ d).unit.pos]
  congr 1
  ring

theorem numbers_congr {a b c : {x : K // 0 < x}} {d : PhysUnit K}
    {i j : Given (PhysUnit K) (Ext K)}
    (h : i.physical (physEnv a b c) d = j.physical (physEnv a b c) d) :
    i.numbers (physEnv a b c) d = j.numbers (physEnv a b c) d ∧
      i.accepted (physEnv a b c) d = j.accepted (physEnv a b c) d := by
  refine ⟨by rw [numbers_physical, numbers_physical, h], ?_⟩
  have : (i.attach (physEnv a b c) d).unit.dim = (j.attach (physEnv a b c) d).unit.dim :=
    congrArg Prod.fst h
  show decide (_ = _) = decide (_ = _)
  rw [this]

theorem SameParticles.congr {a b c : {x : K // 0 < x}} {s t : QArgs (PhysUnit K) (Ext K)}
    (h : SameParticles (physEnv a b c) s t) :
    s.numbers (physEnv a b c) = t.numbers (physEnv a b c) ∧
      s.accepted (physEnv a b c) = t.accepted (physEnv a b c) := by
  have hp : s.potential.map (·.numbers (physEnv a b c) (physEnv a b c).kms2) =
      t.potential.map (·.numbers (physEnv a b c) (physEnv a b c).kms2) ∧
      s.potential.all (·.accepted (physEnv a b c) (physEnv a b c).kms2) =
      t.potential.all (·.accepted (physEnv a b c) (physEnv a b c).kms2) := by
    have := h.potential
    cases hs : s.potential with
    | none =>
      cases ht : t.potential with
      | none => exact ⟨rfl, rfl⟩
      | some j => rw [hs, ht] at this; cases this
    | some i =>
      cases ht : t.potential with
      | none => rw [hs, ht] at this; cases this
      | some j =>
        rw [hs, ht] at this
        have := numbers_congr (Option.some.inj this)
        simp [this.1, this.2]
  constructor
  · simp only [QArgs.numbers, (numbers_congr h.m).1, (numbers_congr h.x).1, (numbers_congr h.y).1,
      (numbers_congr h.z).1, (numbers_congr h.vx).1, (numbers_congr h.vy).1, (numbers_congr h.vz).1,
      hp.1, h.softening]
  · simp only [QArgs.accepted, (numbers_congr h.m).2, (numbers_congr h.x).2, (numbers_congr h.y).2,
      (numbers_congr h.z).2, (numbers_congr h.vx).2, (numbers_congr h.vy).2, (numbers_congr h.vz).2,
      hp.2]

/-- In exact arithmetic two descriptions of the same particles in different units give the same result,
or the same error, in everything that is computed from the prepared galaxy (`f`: its table, its
circularity, its components, its file, its plots). -/
theorem C92_same_particles {S β : Type} [Num S] (a b c : {x : K // 0 < x}) (penv : PotEnv (Ext K) S)
    (backend : String) (rCut : Option (Ext K)) {s d g s' d' g' : QArgs (PhysUnit K) (Ext K)}
    (hs : SameParticles (physEnv a b c) s s') (hd : SameParticles (physEnv a b c) d d')
    (hg : SameParticles (physEnv a b c) g g') (f : Galaxy (Ext K) → Py β) :
    (qprepare (physEnv a b c) penv backend rCut s d g >>= fun G => f (G.arr (physEnv a b c))) =
      (qprepare (physEnv a b c) penv backend rCut s' d' g' >>= fun G =>
        f (G.arr (physEnv a b c))) := by
  have hok := physEnv_ok a b c
  have key : QGalaxy.arr (physEnv a b c) <$> qprepare (physEnv a b c) penv backend rCut s d g =
      QGalaxy.arr (physEnv a b c) <$> qprepare (physEnv a b c) penv backend rCut s' d' g' := by
    by_cases hu : UnitsAccepted (physEnv a b c) s d g
    · have hu' : UnitsAccepted (physEnv a b c) s' d' g' :=
        ⟨hs.congr.2 ▸ hu.1, hd.congr.2 ▸ hu.2.1, hg.congr.2 ▸ hu.2.2⟩
      rw [prepare_numbers hok penv backend rCut hu, prepare_numbers hok penv backend rCut hu', hs.congr.1,
        hd.congr.1, hg.congr.1]
    · have hu' : ¬ UnitsAccepted (physEnv a b c) s' d' g' := fun h =>
        hu ⟨hs.congr.2 ▸ h.1, hd.congr.2 ▸ h.2.1, hg.congr.2 ▸ h.2.2⟩
      unfold qprepare
      rw [mkgalaxy_rejected hok hu, mkgalaxy_rejected hok hu']
  have run (x : Py (QGalaxy (PhysUnit K) (Ext K))) :
      (x >>= fun G => f (G.arr (physEnv a b c))) = (QGalaxy.arr (physEnv a b c) <$> x) >>= f := by
    cases x <;> rfl
  rw [run, run, key]

end exact

/-! ## The unit of `potential_energy_` -/

section unit
variable {U F : Type} [Num F]

theorem qmkgalaxyKw_ok {env : UnitEnv U F} {kw : Dict String (QVal U F)} {G : QGalaxy U F}
    (hG : qmkgalaxyKw env kw = .ok G) :
    ∃ s d g, qargsOf kw "s" = .ok s ∧ qargsOf kw "dm" = .ok d ∧ qargsOf kw "g" = .ok g ∧
      qmkgalaxy env s d g = .ok G := by
  unfold qmkgalaxyKw at hG
  split at hG
  · cases hG
  split at hG
  · cases hG
  cases hs : qargsOf kw "s" with
  | error e => rw [hs] at hG; cases hG
  | ok s =>
  cases hd : qargsOf kw "dm" with
  | error e => rw [hs, hd] at hG; cases hG
  | ok d =>
  cases hg : qargsOf kw "g" with
  | error e => rw [hs, hd, hg] at hG; cases hG
  | ok g =>
    rw [hs, hd, hg] at hG
    exact ⟨s, d, g, rfl, rfl, rfl, hG⟩

theorem qargsOf_potential {kw : Dict String (QVal U F)} {sfx : String} {a : QArgs U F}
    (ha : qargsOf kw sfx = .ok a) : optQArg kw ("potential_" ++ sfx) = .ok a.potential := by
  unfold qargsOf at ha
  refine of_bind ha fun _ ha => ?_
  refine of_bind ha fun _ ha => ?_
  refine of_bind ha fun _ ha => ?_
  refine of_bind ha fun _ ha => ?_
  refine of_bind ha fun _ ha => ?_
  refine of_bind ha fun _ ha => ?_
  refine of_bind ha fun _ ha => ?_
  cases hp : optQArg kw ("potential_" ++ sfx) with
  | error e => rw [hp] at ha; cases ha
  | ok pot =>
    rw [hp] at ha
    refine of_bind (f := fun s => Except.ok _) ha fun _ ha => ?_
    cases ha
    rfl

/-- The potentials `potential` computes are in `(km/s)**2`, as `potential_energy_` documents. -/
theorem C92_computed_unit {S : Type} [Num S] {env : UnitEnv U F} (h : env.OK) {penv : PotEnv F S}
    {g G : QGalaxy U F} {backend : String} (hG : qpotential env penv g backend = .ok G) :
    ∃ p q r : Quantity U F, G.potentialEnergy = some (some p, some q, some r) ∧
      p.unit = env.kms2 ∧ q.unit = env.kms2 ∧ r.unit = env.kms2 := by
  unfold qpotential at hG
  split at hG
  · cases hG
  refine of_bind hG fun _ hG => ?_
  refine of_bind hG fun _ hG => ?_
  refine of_bind hG fun _ hG => ?_
  refine of_bind hG fun _ hG => ?_
  refine of_bind hG fun _ hG => ?_
  refine of_bind hG fun _ hG => ?_
  refine of_bind hG fun _ hG => ?_
  obtain ⟨a, b, c, ha, hb, hc, hm⟩ := qmkgalaxyKw_ok hG
  have pa := qargsOf_potential ha
  have pb := qargsOf_potential hb
  have pc := qargsOf_potential hc
  obtain ⟨hs, hd, hg, hh⟩ := qmkgalaxy_ok hm
  have es := qset_new_eq hs
  have ed := qset_new_eq hd
  have eg := qset_new_eq hg
  simp only [optQArg, Dict.update, List.foldl_cons, List.foldl_nil, Dict.get?_set_eq] at pa pb pc
  simp only [show ("potential_" ++ "s") = "potential_s" from rfl,
    show ("potential_" ++ "dm") = "potential_dm" from rfl,
    show ("potential_" ++ "g") = "potential_g" from rfl,
    if_neg (show ¬ "potential_dm" = "potential_s" by decide),
    if_neg (show ¬ "potential_g" = "potential_s" by decide),
    if_neg (show ¬ "potential_g" = "potential_dm" by decide), if_true] at pa pb pc
  have hp1 := es.2.2.2.2.2.2.2.2.1
  have hp2 := ed.2.2.2.2.2.2.2.2.1
  have hp3 := eg.2.2.2.2.2.2.2.2.1
  rw [← Except.ok.inj pa] at hp1
  rw [← Except.ok.inj pb] at hp2
  rw [← Except.ok.inj pc] at hp3
  have hh' : G.hasPotential = true := by
    rw [hh, es.2.2.2.2.2.2.2.2.2.2.2.2.2.2, ← Except.ok.inj pa]
    rfl
  refine ⟨_, _, _, by rw [QGalaxy.potentialEnergy, if_pos hh', hp1, hp2, hp3]; rfl, ?_, ?_, ?_⟩ <;>
    simp [Given.attach, h.kms2]

end unit

section examples

/-- kilometres, parsecs and metres with kpc and km as fixed lengths -/
abbrev exUnits : UnitEnv (PhysUnit ℚ) (Ext ℚ) := physEnv ⟨1, one_pos⟩ ⟨1, one_pos⟩ ⟨1, one_pos⟩

/-- parsec -/
def exPc : PhysUnit ℚ := ⟨(0, 1, 0), 1 / 1000, by norm_num⟩
/-- metre per second -/
def exMs : PhysUnit ℚ := ⟨(0, 1, -1), 1 / 1000, by norm_num⟩
/-- square of a metre per second -/
def exMs2 : PhysUnit ℚ := ⟨(0, 2, -2), 1 / 1000000, by norm_num⟩

/-- one particle with its position in parsec and its potential in (m/s)^2 -/
def exQSet : QArgs (PhysUnit ℚ) (Ext ℚ) where
  m := .array [.fin 1]
  x := .quantity ⟨[.fin 3000], exPc⟩
  y := .array [.fin 0]
  z := .array [.fin 0]
  vx := .array [.fin 0]
  vy := .quantity ⟨[.fin 2000], exMs⟩
  vz := .array [.fin 0]
  potential := some (.quantity ⟨[.fin (-5000000)], exMs2⟩)
  softening := .fin 0

/-- the same particle in the default units -/
def exQSet' : QArgs (PhysUnit ℚ) (Ext ℚ) where
  m := .array [.fin 1]
  x := .array [.fin 3]
  y := .array [.fin 0]
  z := .array [.fin 0]
  vx := .array [.fin 0]
  vy := .array [.fin 2]
  vz := .array [.fin 0]
  potential := some (.array [.fin (-5)])
  softening := .fin 0

/-- The documentation of `potential_energy_` says that its unit is `(km/s)**2`.  For potentials given in
another unit it is that other unit: here the accessor returns -5000000 (m/s)^2, while the table and the
total energy have -5 (km/s)^2 and 2 - 5 = -3 (km/s)^2. -/
theorem C92_potential_energy_unit :
    ∃ G q, qmkgalaxy exUnits exQSet exQSet exQSet = .ok G ∧
      (∃ r t, G.potentialEnergy = some (some q, r, t)) ∧ q.unit ≠ exUnits.kms2 ∧
      q.vals = [.fin (-5000000)] ∧ (G.arr exUnits).stars.potential = some [.fin (-5)] ∧
      (G.arr exUnits).stars.totalEnergy = some [.fin (-3)] := by
  have hok : ∃ G, qmkgalaxy exUnits exQSet exQSet exQSet = .ok G := ⟨_, rfl⟩
  obtain ⟨G, hG⟩ := hok
  have harr := mkgalaxy_numbers (physEnv_ok _ _ _) (s := exQSet) (d := exQSet) (g := exQSet)
    (show UnitsAccepted exUnits exQSet exQSet exQSet by refine ⟨?_, ?_, ?_⟩ <;> decide +kernel)
  rw [hG] at harr
  have e1 : (mkgalaxy (exQSet.numbers exUnits) (exQSet.numbers exUnits) (exQSet.numbers exUnits)).map
      (fun g => (g.stars.potential, g.stars.totalEnergy)) =
      .ok (some [.fin (-5)], some [.fin (-3)]) := by decide +kernel
  rw [← harr] at e1
  obtain ⟨hs, -, -, hh⟩ := qmkgalaxy_ok hG
  have es := qset_new_eq hs
  have e2 := Except.ok.inj e1
  refine ⟨G, ⟨[.fin (-5000000)], exMs2⟩, hG, ⟨G.darkMatter.potential, G.gas.potential, ?_⟩, ?_, rfl,
    congrArg Prod.fst e2, congrArg Prod.snd e2⟩
  · have hh' : G.hasPotential = true := by
      rw [hh, es.2.2.2.2.2.2.2.2.2.2.2.2.2.2]; rfl
    rw [QGalaxy.potentialEnergy, if_pos hh', es.2.2.2.2.2.2.2.2.1]
    rfl
  · intro h
    have : exMs2.size = (exUnits.kms2).size := congrArg PhysUnit.size h
    norm_num [exMs2, physEnv] at this

/-- the hypotheses of `C92_same_particles` hold for particles in parsec and metres per second -/
example : SameParticles exUnits exQSet exQSet' := by
  constructor <;> decide +kernel

/-- a position in kilometres per second is refused -/
example : qmkgalaxy exUnits { exQSet with x := .quantity ⟨[.fin 3], exMs⟩ } exQSet exQSet =
    .error .valueError :=
  mkgalaxy_rejected (physEnv_ok _ _ _) fun h => absurd h.1 (by decide +kernel)

/-- the whole preparation succeeds for two stars in parsec -/
example : ((nprepare (F := Ext ℚ) (S := Ext ℚ) ⟨id, id, .fin 1, true, fun _ _ => .fin 0⟩ "fortran" none
    (QArgs.numbers exUnits { exQSet with
      m := .array [.fin 1, .fin 1]
      x := .quantity ⟨[.fin 0, .fin 3000], exPc⟩
      y := .array [.fin 0, .fin 0]
      z := .array [.fin 0, .fin 4]
      vx := .array [.fin 0, .fin 0]
      vy := .quantity ⟨[.fin 0, .fin 2000], exMs⟩
      vz := .array [.fin 0, .fin 0]
      potential := none })
    (QArgs.numbers exUnits { exQSet with potential := none })
    (QArgs.numbers exUnits { exQSet with x := .array [.fin 7], potential := none })).isOk) = true := by
  decide +kernel

end examples
end GChop
