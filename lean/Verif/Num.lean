import Mathlib.Data.Rat.Defs

/-!
# Floating point interface

`Num F` is the list of operations the modelled code performs on floats.  It carries no laws, so a
theorem proved for every `Num F` holds for IEEE-754 binary64 whatever the rounding mode.

`NumOrd F` adds laws about comparisons only.  All of them hold for IEEE-754 numbers with the
comparison `<=` (NaN compares false with everything, `-0.0 == 0.0`).
-/

namespace GChop

/-- Operations on floats (numpy `float64` / Python `float`).  No laws. -/
class Num (F : Type) where
  /-- decimal literals in the source, e.g. `0.5` -/
  ofRat : ℚ → F
  nan : F
  ninf : F
  /-- float `add` -/
  add : F → F → F
  /-- float `sub` -/
  sub : F → F → F
  /-- float `mul` -/
  mul : F → F → F
  /-- float `div` -/
  div : F → F → F
  neg : F → F
  abs : F → F
  sqrt : F → F
  /-- `np.sum` of a 1-D array (the order of the additions is numpy's business) -/
  sum : List F → F
  /-- `np.dot` of two 1-D arrays, given as pairs (order and rounding are the business of the linear
  algebra library); also a sum of products in compiled code, where the compiler may fuse operations -/
  dot : List (F × F) → F := fun l => sum (l.map fun p => mul p.1 p.2)
  /-- IEEE `<=` -/
  le : F → F → Bool
  /-- IEEE `<` -/
  lt : F → F → Bool
  /-- IEEE `==` -/
  eq : F → F → Bool
  isNaN : F → Bool
  isFinite : F → Bool
  /-- `np.round(x, digits)` -/
  roundDec : Int → F → F
  /-- the number of elements of `np.arange(start, stop, step)`: `ceil((stop - start)/step)`,
  `0` if that is not positive; only used with a non-zero, non-NaN step -/
  arangeLen : F → F → F → Nat

@[inherit_doc] scoped infixl:65 " +. " => Num.add
@[inherit_doc] scoped infixl:65 " -. " => Num.sub
@[inherit_doc] scoped infixl:70 " *. " => Num.mul
@[inherit_doc] scoped infixl:70 " /. " => Num.div
@[inherit_doc] scoped infix:50 " <=. " => Num.le
@[inherit_doc] scoped infix:50 " <. " => Num.lt
@[inherit_doc] scoped infix:50 " ==. " => Num.eq

namespace Num
variable {F : Type} [Num F]
/-- `0.0` -/
abbrev zero : F := ofRat 0
/-- `1.0` -/
abbrev one : F := ofRat 1
/-- `x ** 2` -/
def sq (x : F) : F := x *. x
/-- `+inf` -/
abbrev pinf : F := neg ninf
/-- conversion of a Python int (numpy casts ints exactly below 2^53) -/
def ofInt (i : Int) : F := ofRat (i : ℚ)
end Num

/-- Laws of IEEE comparisons. -/
class NumOrd (F : Type) [Num F] : Prop where
  /-- NaN compares false -/
  not_nan_of_le : ∀ {a b : F}, (a <=. b) = true → Num.isNaN a = false ∧ Num.isNaN b = false
  le_trans : ∀ {a b c : F}, (a <=. b) = true → (b <=. c) = true → (a <=. c) = true
  le_total : ∀ {a b : F}, Num.isNaN a = false → Num.isNaN b = false →
    (a <=. b) = true ∨ (b <=. a) = true
  lt_def : ∀ (a b : F), (a <. b) = ((a <=. b) && !(b <=. a))
  eq_def : ∀ (a b : F), (a ==. b) = ((a <=. b) && (b <=. a))
  nan_isNaN : Num.isNaN (Num.nan : F) = true
  finite_not_nan : ∀ {a : F}, Num.isFinite a = true → Num.isNaN a = false
  nan_not_finite : Num.isFinite (Num.nan : F) = false
  /-- a number between two finite ones is finite -/
  finite_of_between : ∀ {a b c : F}, Num.isFinite a = true → Num.isFinite c = true →
    (a <=. b) = true → (b <=. c) = true → Num.isFinite b = true
  /-- the literals of small size that occur in the code are finite and ordered like the rationals
  they denote -/
  ofRat_finite : ∀ {q : ℚ}, -1 ≤ q → q ≤ 1 → Num.isFinite (Num.ofRat q : F) = true
  ofRat_le : ∀ {q r : ℚ}, q ≤ r → -1 ≤ q → r ≤ 1 → ((Num.ofRat q : F) <=. Num.ofRat r) = true
  neg_one_lt_zero : ((Num.ofRat (-1) : F) <. Num.ofRat 0) = true
  zero_lt_one : ((Num.ofRat 0 : F) <. Num.ofRat 1) = true
  /-- `+inf` is the largest number -/
  le_pinf : ∀ {a : F}, Num.isNaN a = false → (a <=. Num.pinf) = true

/-- A few laws of IEEE-754 arithmetic (round to nearest) that hold without any error term. -/
class NumIEEE (F : Type) [Num F] : Prop extends NumOrd F where
  /-- `x - x` is `+0.0` -/
  sub_self : ∀ {a : F}, Num.isFinite a = true → (a -. a) = Num.ofRat 0
  /-- `x - 0.0` is `x` -/
  sub_zero : ∀ (a : F), (a -. Num.ofRat 0) = a
  abs_zero : Num.abs (Num.ofRat 0 : F) = Num.ofRat 0
  /-- `x * 0.0` is a zero for finite `x` -/
  mul_zero_eq : ∀ {a : F}, Num.isFinite a = true → ((a *. Num.ofRat 0) ==. Num.ofRat 0) = true
  /-- adding a zero does not change comparisons -/
  le_add_zero : ∀ {z : F} (a c : F), (z ==. Num.ofRat 0) = true → (c <=. (a +. z)) = (c <=. a)

/-- Laws of IEEE-754 division (any rounding to a monotone, sign-symmetric grid). -/
class NumDiv (F : Type) [Num F] : Prop extends NumIEEE F where
  /-- what is not NaN and not infinite is finite -/
  finite_of_not_inf : ∀ {a : F}, Num.isNaN a = false → (a ==. Num.ninf) = false →
    (a ==. Num.pinf) = false → Num.isFinite a = true
  zero_lt_pinf : ((Num.ofRat 0 : F) <. Num.pinf) = true
  /-- the absolute value of a negative number -/
  abs_neg : ∀ {m : F}, Num.isFinite m = true → (m <. Num.ofRat 0) = true →
    (Num.ofRat 0 <. Num.abs m) = true ∧ Num.isFinite (Num.abs m) = true
  /-- `m / |m|` is exactly `-1.0` -/
  div_abs_self : ∀ {m : F}, Num.isFinite m = true → (m <. Num.ofRat 0) = true →
    ((m /. Num.abs m) ==. Num.ofRat (-1)) = true
  /-- division by a positive number is monotone -/
  div_mono : ∀ {a b c : F}, Num.isFinite a = true → Num.isFinite b = true → Num.isFinite c = true →
    (Num.ofRat 0 <. c) = true → (a <=. b) = true → ((a /. c) <=. (b /. c)) = true
  /-- a zero divided by a positive number is a zero -/
  zero_div : ∀ {z c : F}, Num.isFinite c = true → (Num.ofRat 0 <. c) = true →
    (z ==. Num.ofRat 0) = true → ((z /. c) ==. Num.ofRat 0) = true
  /-- zero over zero is NaN -/
  zero_div_zero : ∀ {y z : F}, (y ==. Num.ofRat 0) = true → (z ==. Num.ofRat 0) = true →
    Num.isNaN (y /. Num.abs z) = true

end GChop
