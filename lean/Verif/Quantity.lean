import Verif.Align
import Verif.Center
import Verif.Potential

/-!
# Quantities with units in `galaxychop/data.py`

`Verif/Data.lean` has the attributes of a particle set as numbers in their default units.  Here the
caller may give any of them as an `astropy` quantity with another unit, as the class allows.  The
libraries are described as follows.

* `uttr.ib(unit=...)` (data.py:101-126) multiplies an array without unit, or a dimensionless
  quantity, by the default unit; it keeps any other quantity with the unit it has, and raises
  `ValueError` when that unit is not equivalent to the default one.  (Reading a quantity with a
  wrong unit in one of the defaults raises `UnitConversionError`, which is a `ValueError` too.)
* `arr_` gives an attribute as numbers in its default unit.
* `softening` (data.py:117) has no unit: it is a number.

Everything in the package that computes with particles reads them through `to_dataframe`, which
reads `arr_` (data.py:240-262): `center`, `star_align`, `potential`, the circularity, the
decomposers, the plots and `to_hdf5`.
-/

namespace GChop
open Pd

variable {U F : Type} [Num F]

/-- `astropy.units` as the package uses it: units, the equivalence of units, the conversion of a
number from one unit to another, and the five units of data.py:101-126. -/
structure UnitEnv (U F : Type) where
  /-- `u.is_equivalent(v)` -/
  equiv : U → U → Bool
  /-- one number of `Quantity(x, u).to_value(v)` -/
  conv : U → U → F → F
  /-- `u == dimensionless_unscaled` -/
  dimensionless : U → Bool
  /-- `u.Msun` -/
  msun : U
  /-- `u.kpc` -/
  kpc : U
  /-- `u.km / u.s` -/
  kms : U
  /-- `(u.km / u.s) ** 2` -/
  kms2 : U
  /-- `u.kpc * u.km / u.s` -/
  kpckms : U

/-- an `astropy.units.Quantity` array -/
structure Quantity (U F : Type) where
  vals : List F
  unit : U
  deriving DecidableEq

/-- `q.to_value(unit)` -/
def Quantity.toValue (env : UnitEnv U F) (q : Quantity U F) (u : U) : List F :=
  q.vals.map (env.conv q.unit u)

/-- what the caller may give for an attribute with a unit: an array or a quantity -/
inductive Given (U F : Type) where
  | array (l : List F)
  | quantity (q : Quantity U F)
  deriving DecidableEq

namespace Given

/-- the converter of `uttr.ib(unit=...)` with default unit `d` -/
def attach (env : UnitEnv U F) (d : U) : Given U F → Quantity U F
  | .array l => ⟨l, d⟩
  | .quantity q => if env.dimensionless q.unit then ⟨q.vals, d⟩ else q

/-- the validator of `uttr.ib(unit=...)` accepts the converted value -/
def accepted (env : UnitEnv U F) (d : U) (i : Given U F) : Bool := env.equiv (i.attach env d).unit d

/-- the numbers `arr_` gives for the attribute -/
def numbers (env : UnitEnv U F) (d : U) (i : Given U F) : List F := (i.attach env d).toValue env d

end Given

/-- The constructor arguments of a `ParticleSet` other than the type, data.py:101-117. -/
structure QArgs (U F : Type) where
  m : Given U F
  x : Given U F
  y : Given U F
  z : Given U F
  vx : Given U F
  vy : Given U F
  vz : Given U F
  potential : Option (Given U F)
  softening : F
  deriving DecidableEq

/-- `ParticleSet`, data.py:59-126, with the quantities it stores. -/
structure QSet (U F : Type) where
  ptype : PType
  m : Quantity U F
  x : Quantity U F
  y : Quantity U F
  z : Quantity U F
  vx : Quantity U F
  vy : Quantity U F
  vz : Quantity U F
  potential : Option (Quantity U F)
  softening : F
  hasPotential : Bool
  kineticEnergy : Quantity U F
  totalEnergy : Option (Quantity U F)
  Jx : Quantity U F
  Jy : Quantity U F
  Jz : Quantity U F
  deriving DecidableEq

namespace QArgs

/-- the arguments as `arr_` gives them -/
def numbers (env : UnitEnv U F) (a : QArgs U F) : PArgs F where
  m := a.m.numbers env env.msun
  x := a.x.numbers env env.kpc
  y := a.y.numbers env env.kpc
  z := a.z.numbers env env.kpc
  vx := a.vx.numbers env env.kms
  vy := a.vy.numbers env env.kms
  vz := a.vz.numbers env env.kms
  potential := a.potential.map (·.numbers env env.kms2)
  softening := a.softening

/-- the validators of the attributes with a unit, data.py:101-115 -/
def accepted (env : UnitEnv U F) (a : QArgs U F) : Bool :=
  a.m.accepted env env.msun && a.x.accepted env env.kpc && a.y.accepted env env.kpc &&
    a.z.accepted env env.kpc && a.vx.accepted env env.kms && a.vy.accepted env env.kms &&
    a.vz.accepted env env.kms && (a.potential.all (·.accepted env env.kms2))

end QArgs

namespace QSet

/-- `ParticleSet(ptype, ...)`, data.py:101-195: the converters, the defaults (which read `arr_`, and
give arrays without unit, to which the default unit is attached), the validators and
`__attrs_post_init__`.  The refusal of a unit comes first here; every one of these errors is a
`ValueError`. -/
def new (env : UnitEnv U F) (t : PType) (a : QArgs U F) : Py (QSet U F) := do
  if !a.accepted env then .error .valueError
  else
    let arr := a.numbers env
    let ke ← ParticleSet.kineticDefault arr
    let ke : Quantity U F := ⟨ke, env.kms2⟩
    let te ← ParticleSet.totalDefault arr (ke.toValue env env.kms2)
    let jx ← ParticleSet.crossTerm arr.y arr.vz arr.z arr.vy
    let jy ← ParticleSet.crossTerm arr.z arr.vx arr.x arr.vz
    let jz ← ParticleSet.crossTerm arr.x arr.vy arr.y arr.vx
    if ParticleSet.distinctLengths arr then .error .valueError
    else return {
      ptype := t
      m := a.m.attach env env.msun
      x := a.x.attach env env.kpc
      y := a.y.attach env env.kpc
      z := a.z.attach env env.kpc
      vx := a.vx.attach env env.kms
      vy := a.vy.attach env env.kms
      vz := a.vz.attach env env.kms
      potential := a.potential.map (·.attach env env.kms2)
      softening := a.softening
      hasPotential := a.potential.isSome
      kineticEnergy := ke
      totalEnergy := te.map (⟨·, env.kms2⟩)
      Jx := ⟨jx, env.kpckms⟩
      Jy := ⟨jy, env.kpckms⟩
      Jz := ⟨jz, env.kpckms⟩ }

/-- the particle set as `arr_` shows it (and `ptype`, `softening`, `has_potential_`): all that
`to_dataframe` reads, data.py:240-262 -/
def arr (env : UnitEnv U F) (p : QSet U F) : ParticleSet F where
  ptype := p.ptype
  m := p.m.toValue env env.msun
  x := p.x.toValue env env.kpc
  y := p.y.toValue env env.kpc
  z := p.z.toValue env env.kpc
  vx := p.vx.toValue env env.kms
  vy := p.vy.toValue env env.kms
  vz := p.vz.toValue env env.kms
  potential := p.potential.map (·.toValue env env.kms2)
  softening := p.softening
  hasPotential := p.hasPotential
  kineticEnergy := p.kineticEnergy.toValue env env.kms2
  totalEnergy := p.totalEnergy.map (·.toValue env env.kms2)
  Jx := p.Jx.toValue env env.kpckms
  Jy := p.Jy.toValue env env.kpckms
  Jz := p.Jz.toValue env env.kpckms

/-- `len(pset)`, data.py:214-216. -/
def len (p : QSet U F) : Nat := p.m.vals.length

end QSet

/-- `Galaxy`, data.py:278-305. -/
structure QGalaxy (U F : Type) where
  stars : QSet U F
  darkMatter : QSet U F
  gas : QSet U F
  hasPotential : Bool
  deriving DecidableEq

namespace QGalaxy

/-- `Galaxy(stars, dark_matter, gas)`, data.py:301-334. -/
def new (s d g : QSet U F) : Py (QGalaxy U F) :=
  let flags := [s.hasPotential, g.hasPotential, d.hasPotential]
  if flags.contains true && flags.contains false then .error .valueError
  else if s.ptype ≠ .stars then .error .typeError
  else if d.ptype ≠ .darkMatter then .error .typeError
  else if g.ptype ≠ .gas then .error .typeError
  else .ok ⟨s, d, g, s.hasPotential⟩

/-- the galaxy as `to_dataframe` reads it -/
def arr (env : UnitEnv U F) (g : QGalaxy U F) : Galaxy F :=
  ⟨g.stars.arr env, g.darkMatter.arr env, g.gas.arr env, g.hasPotential⟩

/-- `galaxy.kinetic_energy_`, data.py:420-443. -/
def kineticEnergy (g : QGalaxy U F) : Quantity U F × Quantity U F × Quantity U F :=
  (g.stars.kineticEnergy, g.darkMatter.kineticEnergy, g.gas.kineticEnergy)

/-- `galaxy.potential_energy_`, data.py:445-474. -/
def potentialEnergy (g : QGalaxy U F) :
    Option (Option (Quantity U F) × Option (Quantity U F) × Option (Quantity U F)) :=
  if g.hasPotential then some (g.stars.potential, g.darkMatter.potential, g.gas.potential)
  else none

/-- `galaxy.total_energy_`, data.py:476-504. -/
def totalEnergy (g : QGalaxy U F) :
    Option (Option (Quantity U F) × Option (Quantity U F) × Option (Quantity U F)) :=
  if g.hasPotential then some (g.stars.totalEnergy, g.darkMatter.totalEnergy, g.gas.totalEnergy)
  else none

end QGalaxy

/-- Values of keyword arguments of `mkgalaxy`: an array or a quantity, `None` or a number. -/
inductive QVal (U F : Type) where
  | given (i : Given U F)
  | none
  | num (x : F)
  deriving DecidableEq

/-- an optional quantity as a keyword value -/
def QVal.ofOption : Option (Quantity U F) → QVal U F
  | some q => .given (.quantity q)
  | Option.none => .none

/-- `_pset_as_kwargs(pset, suffix)`, data.py:556-562: the quantities as they are stored. -/
def qsetAsKwargs (p : QSet U F) (suffix : String) : Dict String (QVal U F) :=
  [ ("m_" ++ suffix, .given (.quantity p.m)),
    ("x_" ++ suffix, .given (.quantity p.x)),
    ("y_" ++ suffix, .given (.quantity p.y)),
    ("z_" ++ suffix, .given (.quantity p.z)),
    ("vx_" ++ suffix, .given (.quantity p.vx)),
    ("vy_" ++ suffix, .given (.quantity p.vy)),
    ("vz_" ++ suffix, .given (.quantity p.vz)),
    ("potential_" ++ suffix, .ofOption p.potential),
    ("softening_" ++ suffix, .num p.softening) ]

/-- `galaxy_as_kwargs(galaxy)`, data.py:542-570. -/
def qgalaxyAsKwargs (g : QGalaxy U F) : Dict String (QVal U F) :=
  Dict.update [] (qsetAsKwargs g.stars "s" ++ qsetAsKwargs g.darkMatter "dm" ++
    qsetAsKwargs g.gas "g")

/-- `mkgalaxy` with its parameters grouped by particle type, data.py:645-682. -/
def qmkgalaxy (env : UnitEnv U F) (s d g : QArgs U F) : Py (QGalaxy U F) := do
  let stars ← QSet.new env .stars s
  let darkMatter ← QSet.new env .darkMatter d
  let gas ← QSet.new env .gas g
  QGalaxy.new stars darkMatter gas

/-- an argument with a unit, as `arrArg` -/
def qArg (kw : Dict String (QVal U F)) (k : String) : Py (Given U F) :=
  match Dict.get? kw k with
  | some (.given i) => .ok i
  | _ => .error .typeError

/-- an optional argument with a unit, as `optArrArg` -/
def optQArg (kw : Dict String (QVal U F)) (k : String) : Py (Option (Given U F)) :=
  match Dict.get? kw k with
  | some (.given i) => .ok (some i)
  | some (.num _) => .error .typeError
  | _ => .ok none

/-- a float argument, as `numArg` -/
def qNumArg (kw : Dict String (QVal U F)) (k : String) : Py F :=
  match Dict.get? kw k with
  | some (.num x) => .ok x
  | none => .ok (Num.ofRat 0)
  | _ => .error .typeError

/-- the arguments of one particle type, data.py:645-680 -/
def qargsOf (kw : Dict String (QVal U F)) (suffix : String) : Py (QArgs U F) := do
  let m ← qArg kw ("m_" ++ suffix)
  let x ← qArg kw ("x_" ++ suffix)
  let y ← qArg kw ("y_" ++ suffix)
  let z ← qArg kw ("z_" ++ suffix)
  let vx ← qArg kw ("vx_" ++ suffix)
  let vy ← qArg kw ("vy_" ++ suffix)
  let vz ← qArg kw ("vz_" ++ suffix)
  let potential ← optQArg kw ("potential_" ++ suffix)
  let softening ← qNumArg kw ("softening_" ++ suffix)
  return ⟨m, x, y, z, vx, vy, vz, potential, softening⟩

/-- `mkgalaxy(**kw)`, data.py:573-682. -/
def qmkgalaxyKw (env : UnitEnv U F) (kw : Dict String (QVal U F)) : Py (QGalaxy U F) := do
  if !(Dict.keys kw).all (fun k => (requiredParams ++ optionalParams).contains k) then
    .error .typeError
  else if !requiredParams.all (fun k => (Dict.keys kw).contains k) then
    .error .typeError
  else
    let s ← qargsOf kw "s"
    let d ← qargsOf kw "dm"
    let g ← qargsOf kw "g"
    qmkgalaxy env s d g

/-- an array without unit as a keyword value -/
def QVal.arr (l : List F) : QVal U F := .given (.array l)

/-- `center(galaxy)`, _center.py:26-78: the new coordinates are arrays without unit. -/
def qcenter (env : UnitEnv U F) (g : QGalaxy U F) : Py (QGalaxy U F) := do
  if !g.hasPotential then .error .valueError
  else
    let df ← (g.arr env).toDataframe none (some ["ptypev", "x", "y", "z", "potential"])
    let idx ← seriesArgmin (← df.numCol "potential")
    let row ← df.iloc idx
    let x ← subColumn df row "x"
    let y ← subColumn df row "y"
    let z ← subColumn df row "z"
    let types ← df.col "ptypev"
    qmkgalaxyKw env (Dict.update (qgalaxyAsKwargs g) [
      ("x_s", .arr (ofType types x .stars)),
      ("y_s", .arr (ofType types y .stars)),
      ("z_s", .arr (ofType types z .stars)),
      ("x_dm", .arr (ofType types x .darkMatter)),
      ("y_dm", .arr (ofType types y .darkMatter)),
      ("z_dm", .arr (ofType types z .darkMatter)),
      ("x_g", .arr (ofType types x .gas)),
      ("y_g", .arr (ofType types y .gas)),
      ("z_g", .arr (ofType types z .gas))])

/-- `star_align(galaxy, r_cut=...)`, _align.py:89-172: the rotated columns are arrays without unit;
`r_cut` is a number. -/
def qstarAlign (env : UnitEnv U F) (g : QGalaxy U F) (rCut : Option F) : Py (QGalaxy U F) := do
  if badCut rCut then .error .valueError
  else
    let starsDf ← (g.stars.arr env).toDataframe
      (some ["m", "Jx", "Jy", "Jz", "x", "y", "z", "vx", "vy", "vz"])
    let dmDf ← (g.darkMatter.arr env).toDataframe (some ["x", "y", "z", "vx", "vy", "vz"])
    let gasDf ← (g.gas.arr env).toDataframe (some ["x", "y", "z", "vx", "vy", "vz"])
    let A := getRotMatrix (← starsDf.numCol "m") (← starsDf.numCol "x") (← starsDf.numCol "y")
      (← starsDf.numCol "z") (← starsDf.numCol "Jx") (← starsDf.numCol "Jy")
      (← starsDf.numCol "Jz") rCut
    let s ← rotateFrame A starsDf
    let d ← rotateFrame A dmDf
    let h ← rotateFrame A gasDf
    qmkgalaxyKw env (Dict.update (qgalaxyAsKwargs g) [
      ("x_s", .arr s.1.1), ("y_s", .arr s.1.2.1), ("z_s", .arr s.1.2.2),
      ("vx_s", .arr s.2.1), ("vy_s", .arr s.2.2.1), ("vz_s", .arr s.2.2.2),
      ("x_dm", .arr d.1.1), ("y_dm", .arr d.1.2.1), ("z_dm", .arr d.1.2.2),
      ("vx_dm", .arr d.2.1), ("vy_dm", .arr d.2.2.1), ("vz_dm", .arr d.2.2.2),
      ("x_g", .arr h.1.1), ("y_g", .arr h.1.2.1), ("z_g", .arr h.1.2.2),
      ("vx_g", .arr h.2.1), ("vy_g", .arr h.2.2.1), ("vz_g", .arr h.2.2.2)])

/-- `potential(galaxy, backend)`, _potential.py:117-177: the potentials are quantities in
`(km/s)**2`, _potential.py:172-174. -/
def qpotential {S : Type} [Num S] (env : UnitEnv U F) (penv : PotEnv F S) (g : QGalaxy U F)
    (backend : String) : Py (QGalaxy U F) := do
  if g.hasPotential then .error .valueError
  else
    let df ← (g.arr env).toDataframe none none
    let x ← df.numCol "x"
    let y ← df.numCol "y"
    let z ← df.numCol "z"
    let m ← df.numCol "m"
    let softening := Pd.seriesMax (← df.numCol "softening")
    let pot ← runBackend penv backend (x.map penv.down) (y.map penv.down) (z.map penv.down)
      (m.map penv.down) (penv.down softening)
    let numS := g.stars.len
    let num := g.stars.len + g.darkMatter.len
    let fin (l : List S) : QVal U F :=
      .given (.quantity ⟨l.map fun p => penv.up (Num.neg p), env.kms2⟩)
    qmkgalaxyKw env (Dict.update (qgalaxyAsKwargs g) [
      ("potential_s", fin (pot.take numS)),
      ("potential_dm", fin ((pot.drop numS).take (num - numS))),
      ("potential_g", fin (pot.drop num))])

end GChop
