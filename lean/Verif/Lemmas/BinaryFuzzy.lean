import Verif.Lemmas.BinaryAdd
import Verif.Lemmas.Neg
import Mathlib.Tactic.LinearCombination

/-!
# Errors of double precision computations relative to a scale

`Fuzzy a t M k` follows a computed number of either sign through sums, products, quotients and square
roots.  The error is measured against a scale `M` instead of the number itself, so cancellation and
underflow are allowed.
-/

namespace GChop
namespace Flt
open Fmt

theorem finite_neg {fmt : Fmt} {a : Flt fmt} (h : Num.isFinite a = true) :
    Num.isFinite (Num.neg a) = true := by
  cases a with
  | fin s m => rfl
  | inf s => cases s <;> cases h
  | nan => cases h

theorem value_neg {fmt : Fmt} (a : Flt fmt) : value (Num.neg a) = -value a := by
  unfold value
  rw [toExt_neg']
  cases toExt a <;> simp [Ext.neg]

theorem _root_.GChop.Fmt.srnd_err (fmt : Fmt) (x : ℚ) :
    |fmt.srnd x - x| ≤ |x| * 2 ^ (-(fmt.prec : ℤ)) + 2 ^ fmt.emin := by
  have hp : (0 : ℚ) < 2 ^ (-(fmt.prec : ℤ)) := zpow_pos (by norm_num) _
  have he : (0 : ℚ) < 2 ^ fmt.emin := zpow_pos (by norm_num) _
  have main : ∀ x : ℚ, 0 ≤ x → |fmt.srnd x - x| ≤ |x| * 2 ^ (-(fmt.prec : ℤ)) + 2 ^ fmt.emin := by
    intro x h
    rw [fmt.srnd_of_nonneg h, abs_of_nonneg h]
    have := mul_nonneg h hp.le
    rcases h.eq_or_lt with rfl | h
    · rw [fmt.roundPos_zero]
      simp [he.le]
    by_cases hn : fmt.emin ≤ Int.log 2 x - (fmt.prec - 1 : Int)
    · have := fmt.roundPos_rel h hn
      linarith
    · have hu : fmt.ulp x = 2 ^ fmt.emin := by
        rw [fmt.ulp_eq]
        congr 1
        unfold Fmt.uexp
        omega
      have := fmt.roundPos_err x
      rw [hu] at this
      linarith
  rcases le_total 0 x with h | h
  · exact main x h
  · have := main (-x) (by linarith)
    rw [fmt.srnd_neg, abs_neg, ← abs_neg] at this
    convert this using 2
    ring

/-- the smallest positive double -/
def tiny : ℚ := 2 ^ (-1074 : ℤ)

theorem tiny_pos : 0 < tiny := zpow_pos (by norm_num) _
theorem tiny_le : tiny ≤ 1 := zpow_le_one_of_nonpos₀ (by norm_num) (by norm_num)

/-- scales of products and quotients: far above the smallest double, far below the largest -/
def Scale (M : ℝ) : Prop := (2 : ℝ) ^ (-900 : ℤ) ≤ M ∧ M ≤ 2 ^ (1000 : ℤ)

theorem Scale.pos {M : ℝ} (h : Scale M) : 0 < M := lt_of_lt_of_le (zpow_pos (by norm_num) _) h.1

theorem tiny_scale {M : ℝ} (h : Scale M) : (tiny : ℝ) ≤ M / 2 ^ 53 / 8 := by
  refine le_trans ?_ (div_le_div_of_nonneg_right (div_le_div_of_nonneg_right h.1 (by positivity))
    (by positivity))
  unfold tiny
  rw [Rat.cast_zpow, Rat.cast_ofNat, div_div, show (2 : ℝ) ^ 53 * 8 = 2 ^ (56 : ℤ) by norm_num,
    ← zpow_sub₀ (by norm_num)]
  exact zpow_le_zpow_right₀ (by norm_num) (by norm_num)

theorem two_le_big {M : ℝ} (h : M ≤ 2 ^ (1000 : ℤ)) : 4 * M ≤ 2 ^ (1010 : ℤ) := by
  have : (4 : ℝ) * 2 ^ (1000 : ℤ) ≤ 2 ^ (1010 : ℤ) := by
    rw [show (4 : ℝ) = 2 ^ (2 : ℤ) by norm_num, ← zpow_add₀ (by norm_num)]
    exact zpow_le_zpow_right₀ (by norm_num) (by norm_num)
  exact (mul_le_mul_of_nonneg_left h (by norm_num)).trans this

theorem cast_big {x : ℚ} (h : |(x : ℝ)| ≤ 2 ^ (1010 : ℤ)) : |x| ≤ 2 ^ (1010 : ℤ) := by
  rw [← Rat.cast_le (K := ℝ), Rat.cast_abs, Rat.cast_zpow, Rat.cast_ofNat]
  exact h

theorem clip64 {x : ℚ} (h : |x| ≤ 2 ^ (1010 : ℤ)) :
    Fmt.binary64.clip (Fmt.binary64.srnd x) = .fin (Fmt.binary64.srnd x) :=
  clip_srnd h (by decide) (by decide)

theorem srnd64_err (x : ℚ) :
    |((Fmt.binary64.srnd x : ℚ) : ℝ) - x| ≤ |(x : ℝ)| / 2 ^ 53 + tiny := by
  have h := (Rat.cast_le (K := ℝ)).2 (Fmt.srnd_err Fmt.binary64 x)
  have e : (2 : ℚ) ^ (-(Fmt.binary64.prec : ℤ)) = 1 / 2 ^ 53 := by
    show (2 : ℚ) ^ (-53 : ℤ) = _
    norm_num
  have e2 : (2 : ℚ) ^ Fmt.binary64.emin = tiny := rfl
  rw [e, e2] at h
  rw [Rat.cast_abs, Rat.cast_sub, Rat.cast_add, Rat.cast_mul, Rat.cast_abs] at h
  refine h.trans (le_of_eq ?_)
  congr 1
  push_cast
  ring

/-- The computed number `a` stands for `t`, a number of size at most `M`, with an error of at most
`k/2^53` of `M`. -/
structure Fuzzy (a : Float64) (t M k : ℝ) : Prop where
  fin : Num.isFinite a = true
  nonneg : 0 ≤ k
  le : |t| ≤ M
  err : |(value a : ℝ) - t| ≤ k / 2 ^ 53 * M

namespace Fuzzy
variable {a b : Float64} {t s M N k l : ℝ}

theorem scale_nonneg (h : Fuzzy a t M k) : 0 ≤ M := (abs_nonneg _).trans h.le

theorem size (h : Fuzzy a t M k) : |(value a : ℝ)| ≤ (1 + k / 2 ^ 53) * M := by
  have := abs_sub_abs_le_abs_sub (value a : ℝ) t
  have := h.le
  have := h.err
  linarith

theorem self (ha : Num.isFinite a = true) (h : |(value a : ℝ)| ≤ M) : Fuzzy a (value a) M 0 :=
  ⟨ha, le_rfl, h, by simp⟩

theorem mono (h : Fuzzy a t M k) (hM : M ≤ N) (hk : k ≤ l) : Fuzzy a t N l where
  fin := h.fin
  nonneg := h.nonneg.trans hk
  le := h.le.trans hM
  err := h.err.trans (by
    have := h.scale_nonneg
    have := h.nonneg
    have : k / 2 ^ 53 ≤ l / 2 ^ 53 := div_le_div_of_nonneg_right hk (by positivity)
    exact mul_le_mul this hM h.scale_nonneg ((by positivity : 0 ≤ k / 2 ^ 53).trans this))

theorem neg (h : Fuzzy a t M k) : Fuzzy (Num.neg a) (-t) M k where
  fin := finite_neg h.fin
  nonneg := h.nonneg
  le := by rw [abs_neg]; exact h.le
  err := by
    rw [value_neg, Rat.cast_neg, ← abs_neg]
    refine le_trans (le_of_eq ?_) h.err
    congr 1
    ring

/-- one rounding -/
theorem rnd {c : Float64} {p : ℚ} {d : ℝ} (hc : toExt c = Fmt.binary64.clip (Fmt.binary64.srnd p))
    (hk : 0 ≤ k) (hk1 : k ≤ 2 ^ 50) (hle : |t| ≤ M) (hM : M ≤ 2 ^ (1000 : ℤ))
    (hp : |(p : ℝ) - t| ≤ k / 2 ^ 53 * M)
    (hd : |((Fmt.binary64.srnd p : ℚ) : ℝ) - p| ≤ |(p : ℝ)| / 2 ^ 53 + d)
    (hd1 : d ≤ M / 2 ^ 53 / 8) :
    Fuzzy c t M (k + 5 / 4 + k / 2 ^ 53) := by
  have hM0 : 0 ≤ M := (abs_nonneg _).trans hle
  have hs : |(p : ℝ)| ≤ (1 + k / 2 ^ 53) * M := by
    have := abs_sub_abs_le_abs_sub (p : ℝ) t
    linarith
  have hs2 : |(p : ℝ)| ≤ 4 * M := by
    refine hs.trans ?_
    apply mul_le_mul_of_nonneg_right _ hM0
    rw [← le_sub_iff_add_le', div_le_iff₀ (by positivity)]
    norm_num at hk1 ⊢
    linarith
  rw [clip64 (cast_big (hs2.trans (two_le_big hM)))] at hc
  refine ⟨isFinite_of hc, by positivity, hle, ?_⟩
  rw [value_eq hc]
  have h2 : |((Fmt.binary64.srnd p : ℚ) : ℝ) - t|
      ≤ |((Fmt.binary64.srnd p : ℚ) : ℝ) - p| + |(p : ℝ) - t| := abs_sub_le _ _ _
  have h3 : |(p : ℝ)| / 2 ^ 53 ≤ (1 + k / 2 ^ 53) * M / 2 ^ 53 := by gcongr
  have e : (k + 5 / 4 + k / 2 ^ 53) / 2 ^ 53 * M
      = (1 + k / 2 ^ 53) * M / 2 ^ 53 + M / 2 ^ 53 / 4 + k / 2 ^ 53 * M := by ring
  have : 0 ≤ M / 2 ^ 53 := by positivity
  rw [e]
  linarith

theorem add_core {c : Float64} {k' : ℝ} (ha : Num.isFinite a = true) (hb : Num.isFinite b = true)
    (hM : M ≤ 2 ^ (1000 : ℤ)) (hk0 : 0 ≤ k) (hk : k ≤ 2 ^ 50) (hle : |t| ≤ M)
    (hp : |((value a + value b : ℚ) : ℝ) - t| ≤ k / 2 ^ 53 * M) (hc : c = a +. b)
    (hk' : k + 5 / 4 + k / 2 ^ 53 ≤ k') : Fuzzy c t M k' := by
  have hM0 : 0 ≤ M := (abs_nonneg _).trans hle
  subst hc
  refine (rnd (d := 0) (toExt_add (toExt_value ha) (toExt_value hb)) hk0 hk hle hM hp ?_ ?_).mono
    le_rfl hk'
  · have h := (Rat.cast_le (K := ℝ)).2 (srnd_add_rel a b)
    rw [show (2 : ℚ) ^ (-(Fmt.binary64.prec : ℤ)) = 1 / 2 ^ 53 by
      show (2 : ℚ) ^ (-53 : ℤ) = _
      norm_num] at h
    rw [Rat.cast_abs, Rat.cast_sub, Rat.cast_mul, Rat.cast_abs] at h
    refine h.trans (le_of_eq ?_)
    push_cast
    ring
  · positivity

/-- a sum: the scales are added -/
theorem add (ha : Fuzzy a t M k) (hb : Fuzzy b s N k) (hk : k ≤ 2 ^ 50)
    (hM : M + N ≤ 2 ^ (1000 : ℤ)) : Fuzzy (a +. b) (t + s) (M + N) (k + 2) := by
  have h1 := ha.err
  have h2 := hb.err
  refine add_core (k := k) ha.fin hb.fin hM ha.nonneg hk
    ((abs_add_le _ _).trans (add_le_add ha.le hb.le)) ?_ rfl ?_
  · push_cast
    rw [show (value a : ℝ) + value b - (t + s) = (value a - t) + (value b - s) by ring]
    refine (abs_add_le _ _).trans ?_
    rw [mul_add]
    exact add_le_add h1 h2
  · norm_num at hk ⊢
    linarith

/-- a sum of terms measured against the same scale as the result -/
theorem add' (ha : Fuzzy a t M k) (hb : Fuzzy b s M l) (hst : |t + s| ≤ M) (hk : k + l ≤ 2 ^ 50)
    (hM : M ≤ 2 ^ (1000 : ℤ)) : Fuzzy (a +. b) (t + s) M (k + l + 2) := by
  have h1 := ha.err
  have h2 := hb.err
  refine add_core (k := k + l) ha.fin hb.fin hM (add_nonneg ha.nonneg hb.nonneg) hk hst ?_ rfl ?_
  · push_cast
    rw [show (value a : ℝ) + value b - (t + s) = (value a - t) + (value b - s) by ring]
    refine (abs_add_le _ _).trans ?_
    rw [add_div, add_mul]
    exact add_le_add h1 h2
  · norm_num at hk ⊢
    linarith

theorem sub (ha : Fuzzy a t M k) (hb : Fuzzy b s N k) (hk : k ≤ 2 ^ 50)
    (hM : M + N ≤ 2 ^ (1000 : ℤ)) : Fuzzy (a -. b) (t - s) (M + N) (k + 2) := by
  have h1 := ha.err
  have h2 := hb.err
  have hM0 : 0 ≤ M + N := add_nonneg ha.scale_nonneg hb.scale_nonneg
  have hle : |t - s| ≤ M + N := (abs_sub _ _).trans (add_le_add ha.le hb.le)
  refine (rnd (k := k) (d := 0) (toExt_sub (toExt_value ha.fin) (toExt_value hb.fin)) ha.nonneg hk hle
    hM ?_ ?_ (by positivity)).mono le_rfl ?_
  · push_cast
    rw [show (value a : ℝ) - value b - (t - s) = (value a - t) - (value b - s) by ring]
    refine (abs_sub _ _).trans ?_
    rw [mul_add]
    exact add_le_add h1 h2
  · have h := (Rat.cast_le (K := ℝ)).2 (srnd_sub_rel a b)
    rw [show (2 : ℚ) ^ (-(Fmt.binary64.prec : ℤ)) = 1 / 2 ^ 53 by
      show (2 : ℚ) ^ (-53 : ℤ) = _
      norm_num] at h
    rw [Rat.cast_abs, Rat.cast_sub, Rat.cast_mul, Rat.cast_abs] at h
    refine h.trans (le_of_eq ?_)
    push_cast
    ring
  · norm_num at hk ⊢
    linarith

theorem mul (ha : Fuzzy a t M k) (hb : Fuzzy b s N l) (hk : k ≤ 2 ^ 20) (hl : l ≤ 2 ^ 20)
    (hS : Scale (M * N)) : Fuzzy (a *. b) (t * s) (M * N) (k + l + 2) := by
  have hM0 := ha.scale_nonneg
  have hN0 := hb.scale_nonneg
  have hk0 := ha.nonneg
  have hl0 := hb.nonneg
  have hkl : k * l ≤ 2 ^ 40 := by
    calc k * l ≤ 2 ^ 20 * 2 ^ 20 := mul_le_mul hk hl hl0 (by norm_num)
      _ = _ := by norm_num
  have hle : |t * s| ≤ M * N := by
    rw [abs_mul]; exact mul_le_mul ha.le hb.le (abs_nonneg _) hM0
  refine (rnd (k := k + l + k * l / 2 ^ 53) (d := tiny)
    (toExt_mul (toExt_value ha.fin) (toExt_value hb.fin)) (by positivity) ?_ hle hS.2 ?_
    (srnd64_err _) (tiny_scale hS)).mono le_rfl ?_
  · norm_num at hk hl hkl ⊢
    linarith
  · push_cast
    rw [show (value a : ℝ) * value b - t * s = (value a - t) * value b + t * (value b - s) by ring]
    refine (abs_add_le _ _).trans ?_
    rw [abs_mul, abs_mul]
    have h1 := mul_le_mul ha.err hb.size (abs_nonneg _) (by positivity)
    have h2 := mul_le_mul ha.le hb.err (abs_nonneg _) hM0
    refine (add_le_add h1 h2).trans (le_of_eq ?_)
    ring
  · norm_num at hk hl hkl ⊢
    linarith

/-- a quotient; the divisor is known with a relative error -/
theorem div (ha : Fuzzy a t M k) (hb : Fuzzy b s s l) (hs : 0 < s) (hk : k ≤ 2 ^ 20) (hl : l ≤ 2 ^ 20)
    (hS : Scale (M / s)) : Fuzzy (a /. b) (t / s) (M / s) (k + l + 2) := by
  have hM0 := ha.scale_nonneg
  have hk0 := ha.nonneg
  have hl0 := hb.nonneg
  have hlu : l / 2 ^ 53 ≤ 1 / 2 ^ 33 := by
    rw [div_le_iff₀ (by positivity)]
    norm_num at hl ⊢
    linarith
  have hb1 : s * (1 - 1 / 2 ^ 33) ≤ (value b : ℝ) := by
    have h1 := (abs_le.1 hb.err).1
    have : l / 2 ^ 53 * s ≤ 1 / 2 ^ 33 * s := mul_le_mul_of_nonneg_right hlu hs.le
    linarith
  have hb0 : (0 : ℝ) < value b := lt_of_lt_of_le (mul_pos hs (by norm_num)) hb1
  have hbq : value b ≠ 0 := by
    intro h
    rw [h] at hb0
    simp at hb0
  have hle : |t / s| ≤ M / s := by
    rw [abs_div, abs_of_pos hs]
    exact div_le_div_of_nonneg_right ha.le hs.le
  refine (rnd (k := (k + l) * (1 + 1 / 2 ^ 32)) (d := tiny)
    (toExt_div (toExt_value ha.fin) (toExt_value hb.fin) hbq) (by positivity) ?_ hle hS.2 ?_
    (srnd64_err _) (tiny_scale hS)).mono le_rfl ?_
  · norm_num at hk hl ⊢
    linarith
  · push_cast
    have e : (value a : ℝ) / value b - t / s = ((value a - t) * s - t * (value b - s)) / (value b * s) := by
      field_simp
      ring
    have hp : 0 < (value b : ℝ) * s := mul_pos hb0 hs
    rw [e, abs_div, abs_of_pos hp, div_le_iff₀ hp]
    have h1 : |((value a : ℝ) - t) * s - t * (value b - s)| ≤ k / 2 ^ 53 * M * s + M * (l / 2 ^ 53 * s) := by
      refine (abs_sub _ _).trans ?_
      rw [abs_mul, abs_mul, abs_of_pos hs]
      exact add_le_add (mul_le_mul_of_nonneg_right ha.err hs.le)
        (mul_le_mul ha.le hb.err (abs_nonneg _) hM0)
    refine h1.trans ?_
    have h2 : (k + l) / 2 ^ 53 * M * s ≤ (k + l) / 2 ^ 53 * M * ((1 + 1 / 2 ^ 32) * value b) := by
      apply mul_le_mul_of_nonneg_left _ (by positivity)
      have : s ≤ (1 + 1 / 2 ^ 32) * (s * (1 - 1 / 2 ^ 33)) := by
        have : s * 1 ≤ s * ((1 + 1 / 2 ^ 32) * (1 - 1 / 2 ^ 33)) :=
          mul_le_mul_of_nonneg_left (by norm_num) hs.le
        linarith
      exact this.trans (mul_le_mul_of_nonneg_left hb1 (by norm_num))
    have e2 : (k + l) * (1 + 1 / 2 ^ 32) / 2 ^ 53 * (M / s) * (value b * s)
        = (k + l) / 2 ^ 53 * M * ((1 + 1 / 2 ^ 32) * value b) := by
      field_simp
    rw [e2]
    refine le_trans (le_of_eq ?_) h2
    ring
  · norm_num at hk hl ⊢
    linarith

/-- a square root of a number known with a relative error -/
theorem sqrt (ha : Fuzzy a t t k) (hk : k ≤ 2 ^ 20) (hlo : (2 : ℝ) ^ (-900 : ℤ) ≤ t)
    (hhi : t ≤ 2 ^ (900 : ℤ)) : Fuzzy (Num.sqrt a) (Real.sqrt t) (Real.sqrt t) (k + 3) := by
  have ht : 0 < t := lt_of_lt_of_le (zpow_pos (by norm_num) _) hlo
  have hk0 := ha.nonneg
  have hku : k / 2 ^ 53 ≤ 1 / 2 ^ 33 := by
    rw [div_le_iff₀ (by positivity)]
    norm_num at hk ⊢
    linarith
  have herr : |(value a : ℝ) - t| ≤ 1 / 2 * t := by
    refine ha.err.trans (mul_le_mul_of_nonneg_right (hku.trans (by norm_num)) ht.le)
  obtain ⟨h1, h2⟩ := abs_le.1 herr
  have hv0 : (0 : ℝ) < value a := by linarith
  have hv0q : 0 < value a := by exact_mod_cast hv0
  have hlo' : (2 : ℚ) ^ (2 * (-451) : ℤ) ≤ value a := by
    rw [← Rat.cast_le (K := ℝ), Rat.cast_zpow, Rat.cast_ofNat]
    have h3 : (2 : ℝ) ^ (2 * (-451) : ℤ) ≤ 1 / 2 * 2 ^ (-900 : ℤ) := by
      rw [show (1 / 2 : ℝ) = 2 ^ (-1 : ℤ) by norm_num, ← zpow_add₀ (by norm_num)]
      exact zpow_le_zpow_right₀ (by norm_num) (by norm_num)
    have h4 := h3.trans (mul_le_mul_of_nonneg_left hlo (by norm_num))
    clear hlo hhi h3
    exact h4.trans (by linarith)
  have hhi' : value a ≤ (2 : ℚ) ^ (2 * 451 : ℤ) := by
    rw [← Rat.cast_le (K := ℝ), Rat.cast_zpow, Rat.cast_ofNat]
    have h3 : 2 * (2 : ℝ) ^ (900 : ℤ) ≤ 2 ^ (2 * 451 : ℤ) := by
      nth_rewrite 1 [show (2 : ℝ) = 2 ^ (1 : ℤ) by norm_num]
      rw [← zpow_add₀ (by norm_num)]
      exact zpow_le_zpow_right₀ (by norm_num) (by norm_num)
    have h4 := (mul_le_mul_of_nonneg_left hhi (by norm_num : (0 : ℝ) ≤ 2)).trans h3
    clear hlo hhi h3 hlo'
    exact le_trans (by linarith) h4
  have near : Near a (2 * (-451)) (2 * 451) (2 * 0) (value a : ℝ) :=
    ⟨hv0.le, value a, toExt_value ha.fin, Or.inr ⟨hlo', hhi'⟩, Close.refl _ _⟩
  obtain ⟨_, w, e, m, c⟩ := Near.sqrt near (by decide) (by decide)
  have hunit : Fmt.binary64.unit = 1 / 2 ^ 53 := by
    show (2 : ℝ) ^ (-53 : ℤ) = _
    norm_num
  have hr := Fmt.Close.err Fmt.binary64 c (by exact_mod_cast m.nonneg) (Real.sqrt_nonneg _)
    (by rw [hunit]; norm_num)
  rw [hunit] at hr
  norm_num only [Nat.cast_zero, Nat.cast_one, zero_add, mul_one] at hr
  clear near hlo' hhi' hlo hhi
  have st : 0 < Real.sqrt t := Real.sqrt_pos.2 ht
  have sv : 0 ≤ Real.sqrt (value a : ℝ) := Real.sqrt_nonneg _
  have q1 : Real.sqrt t * Real.sqrt t = t := Real.mul_self_sqrt ht.le
  have q2 : Real.sqrt (value a : ℝ) * Real.sqrt (value a : ℝ) = value a := Real.mul_self_sqrt hv0.le
  have hd : |Real.sqrt (value a : ℝ) - Real.sqrt t| ≤ k / 2 ^ 53 * Real.sqrt t := by
    have : |Real.sqrt (value a : ℝ) - Real.sqrt t| * Real.sqrt t ≤ k / 2 ^ 53 * Real.sqrt t * Real.sqrt t := by
      calc |Real.sqrt (value a : ℝ) - Real.sqrt t| * Real.sqrt t
          ≤ |Real.sqrt (value a : ℝ) - Real.sqrt t| * (Real.sqrt (value a : ℝ) + Real.sqrt t) :=
            mul_le_mul_of_nonneg_left (by linarith) (abs_nonneg _)
        _ = |(value a : ℝ) - t| := by
            rw [← abs_of_nonneg (add_nonneg sv st.le), ← abs_mul]
            congr 1
            linear_combination q2 - q1
        _ ≤ _ := by rw [mul_assoc, q1]; exact ha.err
    exact le_of_mul_le_mul_right this st
  refine ⟨isFinite_of e, by linarith, le_of_eq (abs_of_pos st), ?_⟩
  rw [value_eq e]
  refine (abs_sub_le _ (Real.sqrt (value a : ℝ)) _).trans ?_
  have hs : Real.sqrt (value a : ℝ) ≤ (1 + 1 / 2 ^ 33) * Real.sqrt t := by
    have := (abs_le.1 hd).2
    have := mul_le_mul_of_nonneg_right hku st.le
    linarith
  have e3 : (k + 3) / 2 ^ 53 * Real.sqrt t = k / 2 ^ 53 * Real.sqrt t + 3 / 2 ^ 53 * Real.sqrt t := by ring
  rw [e3]
  norm_num at hr hs ⊢
  linarith

end Fuzzy
end Flt
end GChop
