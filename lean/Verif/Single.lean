import Verif.Potential
import Verif.Binary

/-!
# The numbers of the potential backends

`_potential.py` casts the table of the galaxy (float64) to float32, both backends compute in
float32, and the result is stored in a float64 column.  Here the numbers of `PotEnv` are IEEE-754
numbers of the two formats.
-/

namespace GChop

/-- conversion between formats: `np.asarray(x, dtype=...)`, round to nearest, ties to even -/
def Flt.cast {f g : Fmt} : Flt f → Flt g
  | .fin s m => .ofExact s (Flt.sval s m)
  | .inf s => .inf s
  | .nan => .nan

/-- numpy's `float32` -/
abbrev Float32' := Flt Fmt.binary32

/-- the surroundings of `potential` in IEEE-754 arithmetic, _potential.py:41, 142-156, 160-162 -/
def singleEnv (G : Float32') (built : Bool) (junk : Nat → Nat → Float32') :
    PotEnv Float64 Float32' where
  down := Flt.cast
  up := Flt.cast
  G := G
  fortranBuilt := built
  junk := junk

/-- the same with numpy 2, where the float64 scalar `G` makes the product of _potential.py:70, 103 one
of float64 numbers: `-(pot * G)` is `cast (-pot) * G` (`wideEnv_up`) -/
def wideEnv (G : Float64) (built : Bool) (junk : Nat → Nat → Float32') : PotEnv Float64 Float32' where
  down := Flt.cast
  up p := (Flt.cast p : Float64) *. G
  G := Num.ofRat 1
  fortranBuilt := built
  junk := junk

end GChop
