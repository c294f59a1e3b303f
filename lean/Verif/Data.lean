import Verif.Pd

/-!
# Model of `galaxychop/data.py`

Quantities are numbers in the default unit of their attribute (Msun, kpc, km/s, (km/s)^2): `uttr`
and `astropy.units` attach these units and strip them again in `arr_`; the conversion of inputs
given in other units is modelled in Verif/Quantity.lean.
-/

namespace GChop
open Pd

variable {F : Type} [Num F]

/-- `ParticleSetType`, data.py:30-40. -/
inductive PType where
  | stars
  | darkMatter
  | gas
  deriving DecidableEq, Repr

namespace PType

/-- the members in definition order (`for p in ParticleSetType`), data.py:38-40 -/
def members : List PType := [.stars, .darkMatter, .gas]

/-- `p.name`, data.py:38-40 -/
def name : PType → String
  | .stars => "STARS"
  | .darkMatter => "DARK_MATTER"
  | .gas => "GAS"

/-- `p.value`, data.py:38-40 -/
def value : PType → Int
  | .stars => 0
  | .darkMatter => 1
  | .gas => 2

/-- `p.humanize()`, data.py:54-56: the name in lower case. -/
def humanize : PType → String
  | .stars => "stars"
  | .darkMatter => "dark_matter"
  | .gas => "gas"

/-- The Python values `mktype` distinguishes: a member, a string, a number (ints, bools and floats
compare by value; every finite one is a rational), anything else. -/
inductive MkArg where
  | member (p : PType)
  | str (s : String)
  | num (q : ℚ)
  | other
  deriving DecidableEq

/-- `v in (p.name, p.value)`, data.py:50. -/
def matchesArg (v : MkArg) (p : PType) : Bool :=
  match v with
  | .str s => s == p.name
  | .num q => q == (p.value : ℚ)
  | _ => false

/-- `ParticleSetType.mktype`, data.py:42-52.  `upper` is Python's `str.upper`, kept as a parameter
because its full Unicode table is not modelled. -/
def mktype (upper : String → String) (v : MkArg) : Py PType :=
  match v with
  | .member p => .ok p
  | v =>
    let v := match v with
      | .str s => .str (upper s)
      | v => v
    match members.find? (matchesArg v) with
    | some p => .ok p
    | none => .error .valueError

end PType

/-- `ParticleSet`, data.py:59-126.  The derived attributes (`init=False`) are fields as in the
class; they are only ever filled by the constructor. -/
structure ParticleSet (F : Type) where
  ptype : PType
  m : List F
  x : List F
  y : List F
  z : List F
  vx : List F
  vy : List F
  vz : List F
  potential : Option (List F)
  softening : F
  hasPotential : Bool
  kineticEnergy : List F
  totalEnergy : Option (List F)
  Jx : List F
  Jy : List F
  Jz : List F
  deriving DecidableEq

/-- The constructor arguments of a `ParticleSet` other than the type, data.py:101-117. -/
structure PArgs (F : Type) where
  m : List F
  x : List F
  y : List F
  z : List F
  vx : List F
  vy : List F
  vz : List F
  potential : Option (List F)
  softening : F
  deriving DecidableEq

namespace ParticleSet

/-- `_kinetic_energy__default`, data.py:134-138. -/
def kineticDefault (a : PArgs F) : Py (List F) := do
  let s ← Np.bcast (· +. ·) (a.vx.map Num.sq) (a.vy.map Num.sq)
  let s ← Np.bcast (· +. ·) s (a.vz.map Num.sq)
  return s.map (Num.ofRat (1/2) *. ·)

/-- `_total_energy__default`, data.py:140-149. -/
def totalDefault (a : PArgs F) (ke : List F) : Py (Option (List F)) :=
  match a.potential with
  | none => .ok none
  | some pot => do return some (← Np.bcast (· +. ·) ke pot)

/-- `a * b - c * d` on arrays, the shape of data.py:155, 160 and 165. -/
def crossTerm (a b c d : List F) : Py (List F) := do
  let p ← Np.bcast (· *. ·) a b
  let q ← Np.bcast (· *. ·) c d
  Np.bcast (· -. ·) p q

/-- the lengths collected in `__attrs_post_init__`, data.py:176-187 -/
def lengths (a : PArgs F) : List Nat :=
  [a.m.length, a.x.length, a.y.length, a.z.length, a.vx.length, a.vy.length, a.vz.length] ++
    (match a.potential with | some p => [p.length] | none => [])

/-- `len(lengths) > 1`, data.py:191: more than one distinct length. -/
def distinctLengths (a : PArgs F) : Bool := (lengths a).eraseDups.length > 1

/-- `ParticleSet(ptype, ...)`: attrs evaluates the defaults in field order (data.py:119-165), each
of which numpy may refuse to broadcast, and then runs `__attrs_post_init__` (data.py:167-195).  The
`instance_of(np.ndarray)` check of `potential` is the type of the field. -/
def new (t : PType) (a : PArgs F) : Py (ParticleSet F) := do
  let ke ← kineticDefault a
  let te ← totalDefault a ke
  let jx ← crossTerm a.y a.vz a.z a.vy
  let jy ← crossTerm a.z a.vx a.x a.vz
  let jz ← crossTerm a.x a.vy a.y a.vx
  if distinctLengths a then .error .valueError
  else return {
    ptype := t, m := a.m, x := a.x, y := a.y, z := a.z, vx := a.vx, vy := a.vy, vz := a.vz,
    potential := a.potential, softening := a.softening, hasPotential := a.potential.isSome,
    kineticEnergy := ke, totalEnergy := te, Jx := jx, Jy := jy, Jz := jz }

/-- `len(pset)`, data.py:214-216. -/
def len (p : ParticleSet F) : Nat := p.m.length

/-- `columns_makers`, data.py:241-262. -/
def columnsMakers (p : ParticleSet F) : Dict String (Col F) :=
  [ ("ptype", .arr (List.replicate p.len (.str p.ptype.humanize))),
    ("ptypev", .arr (List.replicate p.len (.int p.ptype.value))),
    ("m", .arr (p.m.map .num)),
    ("x", .arr (p.x.map .num)),
    ("y", .arr (p.y.map .num)),
    ("z", .arr (p.z.map .num)),
    ("vx", .arr (p.vx.map .num)),
    ("vy", .arr (p.vy.map .num)),
    ("vz", .arr (p.vz.map .num)),
    ("softening", .scalar (.num p.softening)),
    ("potential", match p.potential with
      | some pot => .arr (pot.map .num)
      | none => .scalar (.num Num.nan)),
    ("kinetic_energy", .arr (p.kineticEnergy.map .num)),
    ("total_energy", match p.totalEnergy with
      | some te => .arr (te.map .num)
      | none => .scalar (.num Num.nan)),
    ("Jx", .arr (p.Jx.map .num)),
    ("Jy", .arr (p.Jy.map .num)),
    ("Jz", .arr (p.Jz.map .num)) ]

/-- the loop `data[aname] = columns_makers[aname]()`, data.py:266-269 -/
def collectColumns (makers : Dict String (Col F)) :
    List String → Dict String (Col F) → Py (Dict String (Col F))
  | [], d => .ok d
  | a :: as, d => do
    let c ← Dict.getItem makers a
    collectColumns makers as (Dict.set d a c)

/-- `ParticleSet.to_dataframe(attributes)`, data.py:220-270. -/
def toDataframe (p : ParticleSet F) (attributes : Option (List String)) : Py (DF F) := do
  let attributes := attributes.getD (Dict.keys (columnsMakers p))
  let d ← collectColumns (columnsMakers p) attributes []
  ofDict d

end ParticleSet

/-- `Galaxy`, data.py:278-305. -/
structure Galaxy (F : Type) where
  stars : ParticleSet F
  darkMatter : ParticleSet F
  gas : ParticleSet F
  hasPotential : Bool
  deriving DecidableEq

namespace Galaxy

/-- `_has_potential__default`, data.py:307-323: `ValueError` if the set of the three flags is
`{True, False}`. -/
def hasPotentialDefault (s d g : ParticleSet F) : Py Bool :=
  let flags := [s.hasPotential, g.hasPotential, d.hasPotential]
  if flags.contains true && flags.contains false then .error .valueError
  else .ok s.hasPotential

/-- `__attrs_post_init__`, data.py:325-334. -/
def checkTypes (s d g : ParticleSet F) : Py Unit :=
  if s.ptype ≠ .stars then .error .typeError
  else if d.ptype ≠ .darkMatter then .error .typeError
  else if g.ptype ≠ .gas then .error .typeError
  else .ok ()

/-- `Galaxy(stars, dark_matter, gas)`, data.py:301-334. -/
def new (s d g : ParticleSet F) : Py (Galaxy F) := do
  let hp ← hasPotentialDefault s d g
  checkTypes s d g
  return ⟨s, d, g, hp⟩

/-- `len(galaxy)`, data.py:336-338. -/
def len (g : Galaxy F) : Nat := g.stars.len + g.darkMatter.len + g.gas.len

/-- `ptypes is None or pset.ptype.humanize() in ptypes`, data.py:376 -/
def includes (ptypes : Option (List String)) (t : PType) : Bool :=
  match ptypes with
  | none => true
  | some l => l.contains t.humanize

/-- the loop over the three particle sets, data.py:372-378; `ptypes` is a tuple or list of strings
or `None` (a bare string, for which Python tests substrings, is in Verif/BareString.lean) -/
def parts (ptypes attributes : Option (List String)) : List (ParticleSet F) → Py (List (DF F))
  | [] => .ok []
  | p :: ps =>
    if includes ptypes p.ptype then do
      let df ← p.toDataframe attributes
      let rest ← parts ptypes attributes ps
      return df :: rest
    else parts ptypes attributes ps

/-- `Galaxy.to_dataframe(ptypes, attributes)`, data.py:350-380. -/
def toDataframe (g : Galaxy F) (ptypes attributes : Option (List String)) : Py (DF F) := do
  let ps ← parts ptypes attributes [g.stars, g.darkMatter, g.gas]
  concatRows ps

/-- `galaxy.kinetic_energy_`, data.py:420-443. -/
def kineticEnergy (g : Galaxy F) : List F × List F × List F :=
  (g.stars.kineticEnergy, g.darkMatter.kineticEnergy, g.gas.kineticEnergy)

/-- `galaxy.potential_energy_`, data.py:445-474. -/
def potentialEnergy (g : Galaxy F) :
    Option (Option (List F) × Option (List F) × Option (List F)) :=
  if g.hasPotential then some (g.stars.potential, g.darkMatter.potential, g.gas.potential)
  else none

/-- `galaxy.total_energy_`, data.py:476-504. -/
def totalEnergy (g : Galaxy F) :
    Option (Option (List F) × Option (List F) × Option (List F)) :=
  if g.hasPotential then some (g.stars.totalEnergy, g.darkMatter.totalEnergy, g.gas.totalEnergy)
  else none

/-- `galaxy.angular_momentum_`, data.py:506-534, with `ParticleSet.angular_momentum_`,
data.py:199-202: for each set the rows of `np.array([Jx, Jy, Jz])`. -/
def angularMomentum (g : Galaxy F) : List (List F) × List (List F) × List (List F) :=
  ([g.stars.Jx, g.stars.Jy, g.stars.Jz],
   [g.darkMatter.Jx, g.darkMatter.Jy, g.darkMatter.Jz],
   [g.gas.Jx, g.gas.Jy, g.gas.Jz])

end Galaxy

/-- Values of keyword arguments of `mkgalaxy`: an array, `None` or a number. -/
inductive KVal (F : Type) where
  | arr (l : List F)
  | none
  | num (x : F)
  deriving DecidableEq

/-- an optional array as a keyword value -/
def KVal.ofOption : Option (List F) → KVal F
  | some l => .arr l
  | Option.none => .none

/-- `_pset_as_kwargs(pset, suffix)` applied to `attr.asdict` of a particle set (fields with
`init=True`, in order, without `ptype`), data.py:556-562. -/
def psetAsKwargs (p : ParticleSet F) (suffix : String) : Dict String (KVal F) :=
  [ ("m_" ++ suffix, .arr p.m),
    ("x_" ++ suffix, .arr p.x),
    ("y_" ++ suffix, .arr p.y),
    ("z_" ++ suffix, .arr p.z),
    ("vx_" ++ suffix, .arr p.vx),
    ("vy_" ++ suffix, .arr p.vy),
    ("vz_" ++ suffix, .arr p.vz),
    ("potential_" ++ suffix, .ofOption p.potential),
    ("softening_" ++ suffix, .num p.softening) ]

/-- `galaxy_as_kwargs(galaxy)`, data.py:542-570.  After the three pops `gkwargs` is empty. -/
def galaxyAsKwargs (g : Galaxy F) : Dict String (KVal F) :=
  Dict.update [] (psetAsKwargs g.stars "s" ++ psetAsKwargs g.darkMatter "dm" ++
    psetAsKwargs g.gas "g")

/-- `mkgalaxy` with its parameters grouped by particle type, data.py:645-682. -/
def mkgalaxy (s d g : PArgs F) : Py (Galaxy F) := do
  let stars ← ParticleSet.new .stars s
  let darkMatter ← ParticleSet.new .darkMatter d
  let gas ← ParticleSet.new .gas g
  Galaxy.new stars darkMatter gas

/-- the parameters of `mkgalaxy` without default, data.py:574-594 -/
def requiredParams : List String :=
  ["m_s", "x_s", "y_s", "z_s", "vx_s", "vy_s", "vz_s",
   "m_dm", "x_dm", "y_dm", "z_dm", "vx_dm", "vy_dm", "vz_dm",
   "m_g", "x_g", "y_g", "z_g", "vx_g", "vy_g", "vz_g"]

/-- the parameters of `mkgalaxy` with default, data.py:595-600 -/
def optionalParams : List String :=
  ["softening_s", "softening_dm", "softening_g", "potential_s", "potential_dm", "potential_g"]

/-- an array argument; a column that is not an array fails inside numpy with `TypeError`
(simplified: the error is raised before any length error) -/
def arrArg (kw : Dict String (KVal F)) (k : String) : Py (List F) :=
  match Dict.get? kw k with
  | some (.arr l) => .ok l
  | _ => .error .typeError

/-- an optional array argument with default `None` (data.py:598-600); a number fails the
`instance_of(np.ndarray)` validator with `TypeError` -/
def optArrArg (kw : Dict String (KVal F)) (k : String) : Py (Option (List F)) :=
  match Dict.get? kw k with
  | some (.arr l) => .ok (some l)
  | some (.num _) => .error .typeError
  | _ => .ok none

/-- a float argument with default `0.0` (data.py:595-597); `float(None)` and `float(array)` raise
`TypeError` (arrays of length one, which numpy would accept, are not modelled) -/
def numArg (kw : Dict String (KVal F)) (k : String) : Py F :=
  match Dict.get? kw k with
  | some (.num x) => .ok x
  | none => .ok (Num.ofRat 0)
  | _ => .error .typeError

/-- the arguments of one particle type, data.py:645-680 -/
def pargsOf (kw : Dict String (KVal F)) (suffix : String) : Py (PArgs F) := do
  let m ← arrArg kw ("m_" ++ suffix)
  let x ← arrArg kw ("x_" ++ suffix)
  let y ← arrArg kw ("y_" ++ suffix)
  let z ← arrArg kw ("z_" ++ suffix)
  let vx ← arrArg kw ("vx_" ++ suffix)
  let vy ← arrArg kw ("vy_" ++ suffix)
  let vz ← arrArg kw ("vz_" ++ suffix)
  let potential ← optArrArg kw ("potential_" ++ suffix)
  let softening ← numArg kw ("softening_" ++ suffix)
  return ⟨m, x, y, z, vx, vy, vz, potential, softening⟩

/-- `mkgalaxy(**kw)`, data.py:573-682: `TypeError` for an unexpected keyword or a missing required
one, then the body. -/
def mkgalaxyKw (kw : Dict String (KVal F)) : Py (Galaxy F) := do
  if !(Dict.keys kw).all (fun k => (requiredParams ++ optionalParams).contains k) then
    .error .typeError
  else if !requiredParams.all (fun k => (Dict.keys kw).contains k) then
    .error .typeError
  else
    let s ← pargsOf kw "s"
    let d ← pargsOf kw "dm"
    let g ← pargsOf kw "g"
    mkgalaxy s d g

end GChop
