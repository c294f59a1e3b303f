import Verif.Ext
import Mathlib.Data.Int.Log
import Mathlib.Tactic.FieldSimp
import Mathlib.Tactic.Positivity

/-!
# IEEE-754 binary arithmetic

A concrete floating point type with rounding to nearest (ties to even), gradual underflow, overflow
to infinity and signed zeros.  `Float64` has 53 bits of precision, like numpy's `float64`.  The
instances at the end of `Verif/Lemmas/Binary.lean` show that it satisfies the laws `NumOrd`,
`NumIEEE` and `NumDiv`, so every theorem about a type with those laws holds for it.
-/

namespace GChop

/-- A format: bits of precision, exponent of the smallest positive number and of the largest. -/
structure Fmt where
  prec : Nat
  emin : Int
  emax : Int
  prec_pos : 0 < prec
  emin_le : emin ≤ 1 - prec
  emax_nonneg : 0 ≤ emax

namespace Fmt

/-- binary64: the smallest positive number is 2^-1074, the largest is below 2^1024 -/
def binary64 : Fmt := ⟨53, -1074, 1023, by decide, by decide, by decide⟩

/-- binary32 -/
def binary32 : Fmt := ⟨24, -149, 127, by decide, by decide, by decide⟩

variable (fmt : Fmt)

/-- the distance between neighbouring numbers of the format around `x > 0` -/
def ulp (x : ℚ) : ℚ := 2 ^ max (Int.log 2 x - (fmt.prec - 1 : Int)) fmt.emin

/-- a non-negative number rounded to nearest, ties to even, as if there were no largest number -/
def roundPos (x : ℚ) : ℚ := (Ext.roundHalfEven (x / fmt.ulp x) : ℚ) * fmt.ulp x

/-! ### Rounding -/

theorem floor_le_roundHalfEven (x : ℚ) : ⌊x⌋ ≤ Ext.roundHalfEven x := by
  unfold Ext.roundHalfEven
  dsimp only
  split_ifs <;> omega

theorem roundHalfEven_le (x : ℚ) : Ext.roundHalfEven x ≤ ⌊x⌋ + 1 := by
  unfold Ext.roundHalfEven
  dsimp only
  split_ifs <;> omega

theorem roundHalfEven_int (n : ℤ) : Ext.roundHalfEven (n : ℚ) = n := by
  unfold Ext.roundHalfEven
  simp

theorem roundHalfEven_mono {x y : ℚ} (h : x ≤ y) : Ext.roundHalfEven x ≤ Ext.roundHalfEven y := by
  have hf := Int.floor_mono h
  rcases lt_or_eq_of_le hf with hlt | heq
  · exact (roundHalfEven_le x).trans (le_trans (by omega) (floor_le_roundHalfEven y))
  · unfold Ext.roundHalfEven
    dsimp only
    rw [← heq]
    have : x - (⌊x⌋ : ℚ) ≤ y - (⌊x⌋ : ℚ) := by linarith
    split_ifs <;> first | omega | (exfalso; linarith)

theorem roundHalfEven_le_int {x : ℚ} {n : ℤ} (h : x ≤ n) : Ext.roundHalfEven x ≤ n := by
  have := roundHalfEven_mono h
  rwa [roundHalfEven_int] at this

theorem le_roundHalfEven_int {x : ℚ} {n : ℤ} (h : (n : ℚ) ≤ x) : n ≤ Ext.roundHalfEven x := by
  have := roundHalfEven_mono h
  rwa [roundHalfEven_int] at this

/-- the exponent of `ulp` -/
def uexp (x : ℚ) : Int := max (Int.log 2 x - (fmt.prec - 1 : Int)) fmt.emin

theorem ulp_eq (x : ℚ) : fmt.ulp x = 2 ^ fmt.uexp x := rfl

theorem ulp_pos (x : ℚ) : 0 < fmt.ulp x := by
  rw [ulp_eq]
  exact zpow_pos (by norm_num) _

theorem roundPos_zero : fmt.roundPos 0 = 0 := by
  unfold roundPos
  have := roundHalfEven_int 0
  simp only [Int.cast_zero] at this
  simp [this]

theorem roundPos_nonneg {x : ℚ} (h : 0 ≤ x) : 0 ≤ fmt.roundPos x := by
  unfold roundPos
  refine mul_nonneg ?_ (fmt.ulp_pos x).le
  have : (0 : ℤ) ≤ Ext.roundHalfEven (x / fmt.ulp x) :=
    le_roundHalfEven_int (by simpa using div_nonneg h (fmt.ulp_pos x).le)
  exact_mod_cast this

/-- a power of two on the grid of `x` that bounds `x` from above bounds the rounded number -/
theorem roundPos_le_pow {x : ℚ} {e : ℤ} (he : fmt.uexp x ≤ e) (h : x ≤ 2 ^ e) :
    fmt.roundPos x ≤ 2 ^ e := by
  have hu := fmt.ulp_pos x
  obtain ⟨n, hn⟩ : ∃ n : ℤ, (2 : ℚ) ^ e = n * fmt.ulp x := by
    refine ⟨2 ^ (e - fmt.uexp x).toNat, ?_⟩
    rw [ulp_eq]
    push_cast
    rw [← zpow_natCast, Int.toNat_of_nonneg (by omega), ← zpow_add₀ (by norm_num)]
    congr 1
    ring
  unfold roundPos
  rw [hn]
  refine mul_le_mul_of_nonneg_right ?_ hu.le
  have : Ext.roundHalfEven (x / fmt.ulp x) ≤ n := by
    apply roundHalfEven_le_int
    rw [div_le_iff₀ hu, ← hn]
    exact h
  exact_mod_cast this

theorem pow_le_roundPos {x : ℚ} {e : ℤ} (he : fmt.uexp x ≤ e) (h : 2 ^ e ≤ x) :
    2 ^ e ≤ fmt.roundPos x := by
  have hu := fmt.ulp_pos x
  obtain ⟨n, hn⟩ : ∃ n : ℤ, (2 : ℚ) ^ e = n * fmt.ulp x := by
    refine ⟨2 ^ (e - fmt.uexp x).toNat, ?_⟩
    rw [ulp_eq]
    push_cast
    rw [← zpow_natCast, Int.toNat_of_nonneg (by omega), ← zpow_add₀ (by norm_num)]
    congr 1
    ring
  unfold roundPos
  rw [hn]
  refine mul_le_mul_of_nonneg_right ?_ hu.le
  have : n ≤ Ext.roundHalfEven (x / fmt.ulp x) := by
    apply le_roundHalfEven_int
    rw [le_div_iff₀ hu, ← hn]
    exact h
  exact_mod_cast this

theorem roundPos_mono {x y : ℚ} (hx : 0 ≤ x) (h : x ≤ y) : fmt.roundPos x ≤ fmt.roundPos y := by
  rcases hx.eq_or_lt with rfl | hx
  · rw [roundPos_zero]; exact fmt.roundPos_nonneg h
  · have hlog : Int.log 2 x ≤ Int.log 2 y := Int.log_mono_right hx h
    have hle : fmt.uexp x ≤ fmt.uexp y := by unfold uexp; omega
    rcases hle.eq_or_lt with heq | hlt
    · unfold roundPos
      have : fmt.ulp x = fmt.ulp y := by rw [ulp_eq, ulp_eq, heq]
      rw [this]
      refine mul_le_mul_of_nonneg_right ?_ (fmt.ulp_pos y).le
      exact_mod_cast roundHalfEven_mono (div_le_div_of_nonneg_right h (fmt.ulp_pos y).le)
    · have hp := fmt.prec_pos
      have e1 : fmt.uexp y = Int.log 2 y - (fmt.prec - 1 : Int) := by
        unfold uexp at hlt ⊢; omega
      have hy : 0 < y := hx.trans_le h
      have e2 : Int.log 2 x < Int.log 2 y := by unfold uexp at hlt; omega
      calc fmt.roundPos x ≤ 2 ^ Int.log 2 y := by
            apply roundPos_le_pow
            · omega
            · exact_mod_cast ((Int.lt_zpow_iff_log_lt (b := 2) (by norm_num) hx).2 e2).le
        _ ≤ fmt.roundPos y := by
            apply pow_le_roundPos
            · omega
            · exact_mod_cast Int.zpow_log_le_self (b := 2) (by norm_num) hy

/-- a multiple of its own `ulp` is not changed -/
theorem roundPos_of_multiple {y : ℚ} {n : ℤ} (h : y = n * fmt.ulp y) : fmt.roundPos y = y := by
  unfold roundPos
  have : y / fmt.ulp y = n := by
    rw [div_eq_iff (fmt.ulp_pos y).ne']
    exact h
  rw [this, roundHalfEven_int, ← h]

theorem roundPos_idem {x : ℚ} (hx : 0 ≤ x) : fmt.roundPos (fmt.roundPos x) = fmt.roundPos x := by
  rcases hx.eq_or_lt with rfl | hx
  · rw [roundPos_zero, roundPos_zero]
  set y := fmt.roundPos x with hy
  have hy0 : 0 ≤ y := fmt.roundPos_nonneg hx.le
  rcases hy0.eq_or_lt with h0 | hpos
  · rw [← h0, roundPos_zero]
  have hp := fmt.prec_pos
  have hxu : x < 2 ^ (Int.log 2 x + 1) := by
    exact_mod_cast Int.lt_zpow_succ_log_self (b := 2) (by norm_num) x
  -- `y` is a multiple of the ulp of `x`
  have hm : y = (Ext.roundHalfEven (x / fmt.ulp x) : ℚ) * 2 ^ fmt.uexp x := rfl
  by_cases hn : fmt.uexp x ≤ Int.log 2 x + 1
  · have hle : y ≤ 2 ^ (Int.log 2 x + 1) := fmt.roundPos_le_pow hn hxu.le
    rcases hle.eq_or_lt with he | hlt
    · -- rounded up to a power of two
      have hlog : Int.log 2 y = Int.log 2 x + 1 := by
        rw [he]
        exact_mod_cast Int.log_zpow (R := ℚ) (b := 2) (by norm_num) (Int.log 2 x + 1)
      have hu : fmt.uexp y ≤ Int.log 2 x + 1 := by unfold uexp at hn ⊢; omega
      refine fmt.roundPos_of_multiple (n := 2 ^ (Int.log 2 x + 1 - fmt.uexp y).toNat) ?_
      rw [ulp_eq]
      push_cast
      rw [← zpow_natCast, Int.toNat_of_nonneg (by omega), ← zpow_add₀ (by norm_num), he]
      congr 1
      rw [← he]
      ring
    · have hlog : Int.log 2 y ≤ Int.log 2 x := by
        have := (Int.lt_zpow_iff_log_lt (b := 2) (x := Int.log 2 x + 1) (by norm_num) hpos).1
          (by exact_mod_cast hlt)
        omega
      have hu : fmt.uexp y ≤ fmt.uexp x := by unfold uexp; omega
      refine fmt.roundPos_of_multiple
        (n := Ext.roundHalfEven (x / fmt.ulp x) * 2 ^ (fmt.uexp x - fmt.uexp y).toNat) ?_
      rw [fmt.ulp_eq y]
      push_cast
      rw [← zpow_natCast, Int.toNat_of_nonneg (by omega), mul_assoc, ← zpow_add₀ (by norm_num)]
      rw [show fmt.uexp x - fmt.uexp y + fmt.uexp y = fmt.uexp x by ring]
      exact hm
  · -- far below the smallest number: the result is zero or the smallest number
    have he : fmt.uexp x = fmt.emin := by unfold uexp at hn ⊢; omega
    have hle : y ≤ 2 ^ fmt.emin := by
      have := fmt.roundPos_le_pow (x := x) (e := fmt.emin) he.le
        (hxu.le.trans (zpow_le_zpow_right₀ (by norm_num) (by omega)))
      exact this
    have hlog : Int.log 2 y ≤ fmt.emin := by
      have := Int.log_mono_right (b := 2) hpos hle
      have e : Int.log 2 ((2 : ℚ) ^ fmt.emin) = fmt.emin := by
        exact_mod_cast Int.log_zpow (R := ℚ) (b := 2) (by norm_num) fmt.emin
      omega
    have hu : fmt.uexp y = fmt.emin := by unfold uexp; omega
    refine fmt.roundPos_of_multiple (n := Ext.roundHalfEven (x / fmt.ulp x)) ?_
    rw [fmt.ulp_eq y, hu, ← he]
    exact hm

/-- the largest finite number -/
def maxFin : ℚ := (2 - 2 ^ (1 - fmt.prec : Int)) * 2 ^ fmt.emax

/-- the non-negative finite numbers of the format -/
structure Mag where
  val : ℚ
  nonneg : 0 ≤ val
  grid : fmt.roundPos val = val
  le_max : val ≤ fmt.maxFin
  deriving DecidableEq

end Fmt

/-- A number of the format: sign and magnitude, an infinity, or NaN (one NaN is enough: the code
never looks at its payload). -/
inductive Flt (fmt : Fmt) where
  | fin (neg : Bool) (mag : fmt.Mag)
  | inf (neg : Bool)
  | nan
  deriving DecidableEq

/-- numpy's `float64` -/
abbrev Float64 := Flt Fmt.binary64

namespace Flt
variable {fmt : Fmt}

/-- the rational number a finite sign and magnitude stand for -/
def sval (neg : Bool) (m : fmt.Mag) : ℚ := if neg then -m.val else m.val

/-- the value, forgetting the sign of a zero -/
def toExt : Flt fmt → Ext ℚ
  | fin s m => .fin (sval s m)
  | inf true => .ninf
  | inf false => .pinf
  | nan => .nan

/-- The number nearest to the rational `x`, an infinity if that is too large.  The sign of a zero
is the sign of `x`, and `z` says which zero stands for `x = 0`. -/
def ofExact (z : Bool) (x : ℚ) : Flt fmt :=
  let s := if x = 0 then z else decide (x < 0)
  if h : fmt.roundPos |x| ≤ fmt.maxFin then
    .fin s ⟨fmt.roundPos |x|, fmt.roundPos_nonneg (_root_.abs_nonneg x),
      fmt.roundPos_idem (_root_.abs_nonneg x), h⟩
  else .inf s

def neg : Flt fmt → Flt fmt
  | fin s m => fin (!s) m
  | inf s => inf (!s)
  | nan => nan

def abs : Flt fmt → Flt fmt
  | fin _ m => fin false m
  | inf _ => inf false
  | nan => nan

/-- an exact zero sum of two numbers is `-0.0` only if both are negative zeros -/
def add : Flt fmt → Flt fmt → Flt fmt
  | fin s m, fin t n => ofExact (s && t) (sval s m + sval t n)
  | fin _ _, inf t => inf t
  | inf s, fin _ _ => inf s
  | inf s, inf t => if s = t then inf s else nan
  | nan, _ => nan
  | _, nan => nan

def sub (a b : Flt fmt) : Flt fmt := add a (neg b)

def mul : Flt fmt → Flt fmt → Flt fmt
  | fin s m, fin t n => ofExact (s != t) (sval s m * sval t n)
  | fin s m, inf t => if m.val = 0 then nan else inf (s != t)
  | inf s, fin t n => if n.val = 0 then nan else inf (s != t)
  | inf s, inf t => inf (s != t)
  | nan, _ => nan
  | _, nan => nan

def div : Flt fmt → Flt fmt → Flt fmt
  | fin s m, fin t n =>
    if n.val = 0 then (if m.val = 0 then nan else inf (s != t))
    else ofExact (s != t) (sval s m / sval t n)
  | fin s _, inf t => ofExact (s != t) 0
  | inf s, fin t _ => inf (s != t)
  | inf _, inf _ => nan
  | nan, _ => nan
  | _, nan => nan

/-- A number that rounds like the square root of `x > 0`: the square root with a few more bits than
the format has, cut down, and half a unit of the last bit added if something was cut off. -/
def sqrtSticky (fmt : Fmt) (x : ℚ) : ℚ :=
  let k := (fmt.prec + 2 - Int.log 2 x / 2 : Int).toNat
  let y := x * 4 ^ k
  let s := Nat.sqrt ⌊y⌋.toNat
  (if (s * s : ℚ) = y then (s : ℚ) else s + 1 / 2) / 2 ^ k

def sqrt : Flt fmt → Flt fmt
  | fin s m => if m.val = 0 then fin s m else if s then nan else ofExact false (sqrtSticky fmt m.val)
  | inf s => if s then nan else inf false
  | nan => nan

/-- one addition after the other -/
def sum (l : List (Flt fmt)) : Flt fmt := l.foldl add (ofExact false 0)

/-- `np.rint` -/
def rint : Flt fmt → Flt fmt
  | fin s m => ofExact s (Ext.roundHalfEven (sval s m))
  | a => a

/-- `np.round`: scale by a power of ten, `rint`, scale back -/
def roundDec (d : Int) (x : Flt fmt) : Flt fmt :=
  let p := ofExact false (10 ^ d.natAbs)
  if 0 ≤ d then div (rint (mul x p)) p else mul (rint (div x p)) p

/-- `ceil((stop - start)/step)`; the quotient is computed in the format -/
def arangeLen (start stop step : Flt fmt) : Nat :=
  match div (sub stop start) step with
  | fin s m =>
    -- numpy: a quotient that underflows to `+0.0` gives one element
    if m.val = 0 ∧ s = false ∧ toExt (sub stop start) ≠ .fin 0 then 1 else ⌈sval s m⌉.toNat
  | _ => 0

instance : Num (Flt fmt) where
  ofRat := ofExact false
  nan := nan
  ninf := inf true
  add := add
  sub := sub
  mul := mul
  div := div
  neg := neg
  abs := abs
  sqrt := sqrt
  sum := sum
  le a b := Ext.le (toExt a) (toExt b)
  lt a b := Ext.lt (toExt a) (toExt b)
  eq a b := Ext.eq (toExt a) (toExt b)
  isNaN a := Ext.isNaN (toExt a)
  isFinite a := Ext.isFinite (toExt a)
  roundDec := roundDec
  arangeLen := arangeLen

end Flt
end GChop
