import Verif.Lemmas.BinaryClose

/-!
# Sums of numbers of a format

A sum (or difference) of two numbers of a format has a relative error of at most half a unit in the
last place, also where it underflows: it is a multiple of the smallest positive number.
-/

namespace GChop
namespace Fmt
variable (fmt : Fmt)

/-- numbers of the format are multiples of the smallest positive one -/
theorem multiple_emin {y : ℚ} (hy : fmt.roundPos y = y) : ∃ n : ℤ, y = n * 2 ^ fmt.emin := by
  refine ⟨Ext.roundHalfEven (y / fmt.ulp y) * 2 ^ (fmt.uexp y - fmt.emin).toNat, ?_⟩
  have he : fmt.emin ≤ fmt.uexp y := by unfold uexp; omega
  have : fmt.ulp y = 2 ^ (fmt.uexp y - fmt.emin).toNat * 2 ^ fmt.emin := by
    rw [fmt.ulp_eq y, ← zpow_natCast, Int.toNat_of_nonneg (by omega), ← zpow_add₀ (by norm_num)]
    congr 1
    ring
  push_cast
  rw [mul_assoc, ← this]
  exact hy.symm

theorem roundPos_rel_multiple {x : ℚ} (hx : 0 ≤ x) {n : ℤ} (h : x = n * 2 ^ fmt.emin) :
    |fmt.roundPos x - x| ≤ x * 2 ^ (-(fmt.prec : ℤ)) := by
  rcases hx.eq_or_lt with rfl | hx
  · simp [roundPos_zero]
  by_cases hn : fmt.emin ≤ Int.log 2 x - (fmt.prec - 1 : Int)
  · exact fmt.roundPos_rel hx hn
  · have hu : fmt.ulp x = 2 ^ fmt.emin := by
      rw [fmt.ulp_eq x]
      congr 1
      unfold uexp
      omega
    rw [fmt.roundPos_of_multiple (n := n) (by rw [hu]; exact h), sub_self, abs_zero]
    exact mul_nonneg hx.le (zpow_pos (by norm_num) _).le

theorem srnd_rel_multiple {x : ℚ} {n : ℤ} (h : x = n * 2 ^ fmt.emin) :
    |fmt.srnd x - x| ≤ |x| * 2 ^ (-(fmt.prec : ℤ)) := by
  rcases le_total 0 x with h0 | h0
  · rw [fmt.srnd_of_nonneg h0, abs_of_nonneg h0]
    exact fmt.roundPos_rel_multiple h0 h
  · have := fmt.roundPos_rel_multiple (x := -x) (n := -n) (by linarith) (by rw [h]; push_cast; ring)
    rw [abs_of_nonpos h0]
    have e : fmt.srnd x = -fmt.roundPos (-x) := by
      rw [← fmt.srnd_of_nonneg (by linarith : 0 ≤ -x), srnd_neg, neg_neg]
    rw [e, ← abs_neg]
    convert this using 2
    ring

/-- `k` roundings as a relative error -/
theorem Close.err {k : ℕ} {a b : ℝ} (h : Close fmt.q k a b) (ha : 0 ≤ a) (hb : 0 ≤ b)
    (hk : 2 * k * fmt.unit ≤ 1) : |a - b| ≤ 2 * k * fmt.unit * b := by
  have h1 := fmt.unit_pos
  have h2 := fmt.unit_le
  have hu : 0 < 1 - fmt.unit := by linarith
  have hB : 1 + (k : ℝ) * (-fmt.unit) ≤ (1 + (-fmt.unit)) ^ k := one_add_mul_le_pow (by linarith) k
  have hq : fmt.q ^ k * (1 + (-fmt.unit)) ^ k = 1 := by
    rw [← mul_pow]
    unfold q
    rw [← sub_eq_add_neg, inv_mul_cancel₀ hu.ne', one_pow]
  obtain ⟨c1, c2⟩ := h
  set w := (1 + (-fmt.unit)) ^ k
  have hw0 : 0 ≤ w := by
    have : (0 : ℝ) ≤ 1 + (-fmt.unit) := by linarith
    positivity
  have d1 : a * w ≤ b := by
    have := mul_le_mul_of_nonneg_right c1 hw0
    rwa [mul_right_comm, hq, one_mul] at this
  have d2 : b * w ≤ a := by
    have := mul_le_mul_of_nonneg_right c2 hw0
    rwa [mul_right_comm, hq, one_mul] at this
  have e1 : a * (1 + k * (-fmt.unit)) ≤ b := (mul_le_mul_of_nonneg_left hB ha).trans d1
  have e2 : b * (1 + k * (-fmt.unit)) ≤ a := (mul_le_mul_of_nonneg_left hB hb).trans d2
  have hku : 0 ≤ k * fmt.unit := by positivity
  have ha2 : a ≤ 2 * b := by nlinarith
  rw [abs_le]
  constructor
  · nlinarith [mul_nonneg hku hb]
  · nlinarith [mul_le_mul_of_nonneg_left ha2 hku]

end Fmt

namespace Flt
variable {fmt : Fmt}

/-- the value of a finite number (zero for the others) -/
def value (a : Flt fmt) : ℚ :=
  match toExt a with
  | .fin v => v
  | _ => 0

theorem value_eq {a : Flt fmt} {v : ℚ} (h : toExt a = .fin v) : value a = v := by
  unfold value
  rw [h]

theorem toExt_value {a : Flt fmt} (h : Num.isFinite a = true) : toExt a = .fin (value a) := by
  obtain ⟨s, m, rfl⟩ := isFinite_iff.1 h
  rfl

theorem isFinite_of {a : Flt fmt} {v : ℚ} (h : toExt a = .fin v) : Num.isFinite a = true := by
  show Ext.isFinite (toExt a) = true
  rw [h]
  rfl

theorem value_multiple (a : Flt fmt) : ∃ n : ℤ, value a = n * 2 ^ fmt.emin := by
  cases a with
  | fin s m =>
    obtain ⟨n, hn⟩ := fmt.multiple_emin m.grid
    cases s
    · exact ⟨n, hn⟩
    · refine ⟨-n, ?_⟩
      show -m.val = _
      rw [hn]
      push_cast
      ring
  | inf s => exact ⟨0, by cases s <;> simp [value, toExt]⟩
  | nan => exact ⟨0, by simp [value, toExt]⟩

theorem srnd_add_rel (a b : Flt fmt) :
    |fmt.srnd (value a + value b) - (value a + value b)|
      ≤ |value a + value b| * 2 ^ (-(fmt.prec : ℤ)) := by
  obtain ⟨n, hn⟩ := value_multiple a
  obtain ⟨k, hk⟩ := value_multiple b
  exact fmt.srnd_rel_multiple (n := n + k) (by rw [hn, hk]; push_cast; ring)

theorem srnd_sub_rel (a b : Flt fmt) :
    |fmt.srnd (value a - value b) - (value a - value b)|
      ≤ |value a - value b| * 2 ^ (-(fmt.prec : ℤ)) := by
  obtain ⟨n, hn⟩ := value_multiple a
  obtain ⟨k, hk⟩ := value_multiple b
  exact fmt.srnd_rel_multiple (n := n - k) (by rw [hn, hk]; push_cast; ring)

theorem abs_srnd_le_pow {x : ℚ} {e : ℤ} (h : |x| ≤ 2 ^ e) (he : fmt.emin + (fmt.prec - 1 : Int) ≤ e) :
    |fmt.srnd x| ≤ 2 ^ e := fmt.abs_srnd_le h (fmt.srnd_pow he)

theorem clip_srnd {x : ℚ} {e : ℤ} (h : |x| ≤ 2 ^ e) (h1 : fmt.emin + (fmt.prec - 1 : Int) ≤ e)
    (h2 : e ≤ fmt.emax) : fmt.clip (fmt.srnd x) = .fin (fmt.srnd x) :=
  fmt.clip_fin ((abs_srnd_le_pow h h1).trans (fmt.pow_le_maxFin h2))

theorem emin_le_emax : fmt.emin + (fmt.prec - 1 : Int) ≤ fmt.emax := by
  have := fmt.emin_le
  have := fmt.emax_nonneg
  omega

/-- a sum that does not overflow -/
theorem value_add {a b : Flt fmt} (ha : Num.isFinite a = true) (hb : Num.isFinite b = true)
    (h : |value a + value b| ≤ 2 ^ fmt.emax) :
    toExt (a +. b) = .fin (fmt.srnd (value a + value b)) := by
  rw [toExt_add (toExt_value ha) (toExt_value hb)]
  exact clip_srnd h emin_le_emax le_rfl

theorem value_sub {a b : Flt fmt} (ha : Num.isFinite a = true) (hb : Num.isFinite b = true)
    (h : |value a - value b| ≤ 2 ^ fmt.emax) :
    toExt (a -. b) = .fin (fmt.srnd (value a - value b)) := by
  rw [toExt_sub (toExt_value ha) (toExt_value hb)]
  exact clip_srnd h emin_le_emax le_rfl

/-- a difference is zero only if the numbers are equal -/
theorem srnd_sub_eq_zero (a b : Flt fmt) : fmt.srnd (value a - value b) = 0 ↔ value a = value b := by
  constructor
  · intro h
    have := srnd_sub_rel a b
    rw [h, zero_sub, abs_neg] at this
    have hp := fmt.prec_pos
    have h1 : (2 : ℚ) ^ (-(fmt.prec : ℤ)) ≤ 2 ^ (-1 : ℤ) := zpow_le_zpow_right₀ (by norm_num) (by omega)
    have h2 : |value a - value b| * 2 ^ (-(fmt.prec : ℤ)) ≤ |value a - value b| * 2 ^ (-1 : ℤ) :=
      mul_le_mul_of_nonneg_left h1 (abs_nonneg _)
    have h3 : |value a - value b| = 0 := by
      have := abs_nonneg (value a - value b)
      rw [show (2 : ℚ) ^ (-1 : ℤ) = 1 / 2 by norm_num] at h2
      linarith
    linarith [abs_eq_zero.1 h3]
  · intro h
    rw [h, sub_self, fmt.srnd_zero]

end Flt
end GChop
