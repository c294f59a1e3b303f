import Verif.Num
import Mathlib.Algebra.Order.Field.Basic
import Mathlib.Algebra.Order.Floor.Ring
import Mathlib.Algebra.Order.Round
import Mathlib.Analysis.Real.Sqrt
import Mathlib.Tactic.Linarith
import Mathlib.Tactic.NormNum

/-!
# `Ext K`: exact arithmetic with the IEEE special values

Finite values are elements of an ordered field `K` and finite arithmetic is exact.  The special
values follow IEEE-754.  Simplification: there is one zero, so a division by zero has the sign of
the numerator (the code divides only by absolute values, square roots and sums of those, which are
never `-0.0`).
-/

namespace GChop

/-- Square root operation on a field (the law is `LawfulSqrt`). -/
class HasSqrt (K : Type) where
  ksqrt : K → K

/-- The square root law. -/
class LawfulSqrt (K : Type) [Field K] [LinearOrder K] [HasSqrt K] : Prop where
  sqrt_nonneg : ∀ x : K, 0 ≤ HasSqrt.ksqrt x
  sqrt_mul_self : ∀ x : K, 0 ≤ x → HasSqrt.ksqrt x * HasSqrt.ksqrt x = x

noncomputable instance : HasSqrt ℝ := ⟨Real.sqrt⟩
instance : LawfulSqrt ℝ := ⟨Real.sqrt_nonneg, fun _ h => Real.mul_self_sqrt h⟩

/-- Integer square root by bisection with fuel, to evaluate concrete cases in the kernel. -/
def natSqrtAux (n : Nat) : Nat → Nat → Nat → Nat
  | 0, lo, _ => lo
  | fuel + 1, lo, hi =>
    if hi ≤ lo + 1 then lo
    else
      let mid := (lo + hi) / 2
      if mid * mid ≤ n then natSqrtAux n fuel mid hi else natSqrtAux n fuel lo mid

/-- Square root on the rationals: exact on squares of rationals, the code's concrete
counterexamples only need those; elsewhere a rounded-down value.  It is not `LawfulSqrt`, so no
general theorem applies to it; it only serves to evaluate examples. -/
instance : HasSqrt ℚ where
  ksqrt q := mkRat (natSqrtAux q.num.toNat 64 0 (q.num.toNat + 1))
                  (natSqrtAux q.den 64 0 (q.den + 1))

/-- An element of `K`, or an IEEE special value. -/
inductive Ext (K : Type) where
  | fin (x : K)
  | pinf
  | ninf
  | nan
  deriving DecidableEq, Repr

namespace Ext
variable {K : Type} [Field K] [LinearOrder K]

def neg : Ext K → Ext K
  | fin x => fin (-x)
  | pinf => ninf
  | ninf => pinf
  | nan => nan

def abs : Ext K → Ext K
  | fin x => fin |x|
  | pinf => pinf
  | ninf => pinf
  | nan => nan

def add : Ext K → Ext K → Ext K
  | nan, _ => nan
  | _, nan => nan
  | fin x, fin y => fin (x + y)
  | fin _, pinf => pinf
  | fin _, ninf => ninf
  | pinf, fin _ => pinf
  | ninf, fin _ => ninf
  | pinf, pinf => pinf
  | ninf, ninf => ninf
  | pinf, ninf => nan
  | ninf, pinf => nan

def sub (a b : Ext K) : Ext K := add a (neg b)

/-- an infinity with the sign of `x`; NaN for zero -/
def signInf (x : K) : Ext K := if 0 < x then pinf else if x < 0 then ninf else nan

def mul : Ext K → Ext K → Ext K
  | nan, _ => nan
  | _, nan => nan
  | fin x, fin y => fin (x * y)
  | fin x, pinf => signInf x
  | fin x, ninf => neg (signInf x)
  | pinf, fin x => signInf x
  | ninf, fin x => neg (signInf x)
  | pinf, pinf => pinf
  | ninf, ninf => pinf
  | pinf, ninf => ninf
  | ninf, pinf => ninf

def div : Ext K → Ext K → Ext K
  | nan, _ => nan
  | _, nan => nan
  | fin x, fin y => if y = 0 then signInf x else fin (x / y)
  | fin _, pinf => fin 0
  | fin _, ninf => fin 0
  | pinf, fin y => if y < 0 then ninf else pinf
  | ninf, fin y => if y < 0 then pinf else ninf
  | pinf, pinf => nan
  | ninf, ninf => nan
  | pinf, ninf => nan
  | ninf, pinf => nan

def sqrt [HasSqrt K] : Ext K → Ext K
  | fin x => if x < 0 then nan else fin (HasSqrt.ksqrt x)
  | pinf => pinf
  | ninf => nan
  | nan => nan

/-- exact sum -/
def sum (l : List (Ext K)) : Ext K := l.foldl add (fin 0)

def le : Ext K → Ext K → Bool
  | nan, _ => false
  | _, nan => false
  | fin x, fin y => decide (x ≤ y)
  | fin _, pinf => true
  | fin _, ninf => false
  | pinf, fin _ => false
  | ninf, fin _ => true
  | pinf, pinf => true
  | ninf, ninf => true
  | pinf, ninf => false
  | ninf, pinf => true

def lt (a b : Ext K) : Bool := le a b && !le b a
def eq (a b : Ext K) : Bool := le a b && le b a

def isNaN : Ext K → Bool
  | nan => true
  | _ => false

def isFinite : Ext K → Bool
  | fin _ => true
  | _ => false

/-- round half to even, the rule of `np.round` -/
def roundHalfEven [FloorRing K] (x : K) : ℤ :=
  let f := ⌊x⌋
  let r := x - (f : K)
  if r < 1 / 2 then f else if 1 / 2 < r then f + 1 else if f % 2 = 0 then f else f + 1

def roundDec [FloorRing K] (d : ℤ) : Ext K → Ext K
  | fin x => fin ((roundHalfEven (x * (10 : K) ^ d) : K) / (10 : K) ^ d)
  | a => a

/-- the length of `np.arange`; numpy returns the single element `start` when the quotient
underflows to `+0.0` although `start != stop`, which with exact arithmetic needs an infinite step -/
def arangeLen [FloorRing K] : Ext K → Ext K → Ext K → Nat
  | fin a, fin b, fin s => ⌈(b - a) / s⌉.toNat
  | fin a, fin b, pinf => if a < b then 1 else 0
  | fin a, fin b, ninf => if b < a then 1 else 0
  | _, _, _ => 0

instance [FloorRing K] [HasSqrt K] : Num (Ext K) where
  ofRat q := fin (q : K)
  nan := nan
  ninf := ninf
  add := add
  sub := sub
  mul := mul
  div := div
  neg := neg
  abs := abs
  sqrt := sqrt
  sum := sum
  le := le
  lt := lt
  eq := eq
  isNaN := isNaN
  isFinite := isFinite
  roundDec := roundDec
  arangeLen := arangeLen

end Ext
end GChop
