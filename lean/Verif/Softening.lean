import Verif.Quantity

/-!
# Softenings and cutoff radii that are not floats

`softening` has the converter `float` (data.py:117), although the docstring (data.py:80-81) calls it a
quantity with default unit kpc.  The converters run before the validators and the defaults, in the order
of the attributes; those before `softening` only multiply by a unit.

* `float` of an array with one entry is that entry (deprecated since numpy 1.25), of any other array a
  `TypeError`; of a string the number it spells, or a `ValueError`.
* `float` of a quantity is the number in the unit 1, or a `TypeError` when the unit is not equivalent to 1 or
  there is not exactly one entry (`astropy.units.Quantity.__float__`).
* Comparing a quantity with numbers without unit converts it to the unit 1.  If its unit is not equivalent
  to 1, the comparison raises `UnitConversionError`, a `ValueError`, unless every number is zero, infinite or
  NaN: these are taken to have any unit.

The cutoff radius here is a number or a quantity with one entry.
-/

namespace GChop
open Pd

variable {U F : Type} [Num F]

/-- what the caller may give as a softening -/
inductive SoftArg (U F : Type) where
  | number (x : F)
  | text (s : String)
  | array (l : List F)
  | quantity (q : Quantity U F)
  | other

/-- `float(v)`, data.py:117; `one` is the unit 1 and `parse` the number a string spells -/
def SoftArg.toFloat (env : UnitEnv U F) (one : U) (parse : String → Option F) : SoftArg U F → Py F
  | .number x => .ok x
  | .text s => match parse s with
    | some x => .ok x
    | none => .error .valueError
  | .array [x] => .ok x
  | .array _ => .error .typeError
  | .quantity q => if env.equiv q.unit one then
      match q.vals with
      | [x] => .ok (env.conv q.unit one x)
      | _ => .error .typeError
    else .error .typeError
  | .other => .error .typeError

/-- `ParticleSet(ptype, ..., softening=soft)`, data.py:101-195; the softening in `a` is not used -/
def newSoft (env : UnitEnv U F) (one : U) (parse : String → Option F) (t : PType) (a : QArgs U F)
    (soft : SoftArg U F) : Py (QSet U F) := do
  let x ← soft.toFloat env one parse
  QSet.new env t { a with softening := x }

/-- `mkgalaxy` with any softenings, data.py:645-682 -/
def mkgalaxySoft (env : UnitEnv U F) (one : U) (parse : String → Option F) (s d g : QArgs U F)
    (softS softDm softG : SoftArg U F) : Py (QGalaxy U F) := do
  let stars ← newSoft env one parse .stars s softS
  let darkMatter ← newSoft env one parse .darkMatter d softDm
  let gas ← newSoft env one parse .gas g softG
  QGalaxy.new stars darkMatter gas

/-- a number that astropy lets have any unit: zero, infinite or NaN -/
def anyUnit (x : F) : Bool := (x ==. Num.ofRat 0) || !Num.isFinite x

/-- `star_align(galaxy, r_cut=x * u)`, _align.py:111-112, 61 and 26-32: the sign is tested first, and
zero has any unit -/
def starAlignQuantity (env : UnitEnv U F) (one : U) (g : Galaxy F) (x : F) (u : U) : Py (Galaxy F) :=
  if env.equiv u one then starAlign g (some (env.conv u one x))
  else if x <=. Num.ofRat 0 then .error .valueError
  else if (zip3With radius g.stars.x g.stars.y g.stars.z).all anyUnit then starAlign g (some x)
  else .error .valueError

end GChop
