import Verif.Lemmas.BinaryErr
import Mathlib.Analysis.Real.Sqrt

/-!
# The square root is correctly rounded

`Flt.sqrt` rounds a rational number that stands for the square root.  It is on the same side of
every number of the format, and of every midpoint between neighbours, as the square root itself.
-/

namespace GChop
namespace Flt
variable {fmt : Fmt}

/-- the number of bits after the binary point that `sqrtSticky` keeps -/
def stickyBits (fmt : Fmt) (x : ℚ) : Nat := (fmt.prec + 2 - Int.log 2 x / 2 : Int).toNat

/-- both are equal or strictly between the same integers, after scaling -/
theorem sticky_cases {x : ℚ} (hx : 0 < x) :
    (((sqrtSticky fmt x * 2 ^ stickyBits fmt x : ℚ) : ℝ)
      = Real.sqrt (x : ℝ) * 2 ^ stickyBits fmt x) ∨
    ∃ s : ℤ, ((s : ℚ) < sqrtSticky fmt x * 2 ^ stickyBits fmt x ∧
        sqrtSticky fmt x * 2 ^ stickyBits fmt x < s + 1) ∧
      ((s : ℝ) < Real.sqrt (x : ℝ) * 2 ^ stickyBits fmt x ∧
        Real.sqrt (x : ℝ) * 2 ^ stickyBits fmt x < s + 1) := by
  set k := stickyBits fmt x with hk
  set y := x * 4 ^ k with hy
  set s := Nat.sqrt ⌊y⌋.toNat with hs
  have hy0 : 0 < y := by positivity
  have hn : ((⌊y⌋.toNat : ℤ)) = ⌊y⌋ := Int.toNat_of_nonneg (Int.floor_nonneg.2 hy0.le)
  have hsy : (s * s : ℚ) ≤ y := by
    have h1 : s * s ≤ ⌊y⌋.toNat := Nat.sqrt_le _
    have h2 : ((s * s : ℕ) : ℤ) ≤ ⌊y⌋ := by omega
    have h3 := Int.le_floor.1 h2
    exact_mod_cast h3
  have hsy' : y < ((s + 1) * (s + 1) : ℚ) := by
    have h1 : ⌊y⌋.toNat < (s + 1) * (s + 1) := Nat.lt_succ_sqrt _
    have h2 : ⌊y⌋ < (((s + 1) * (s + 1) : ℕ) : ℤ) := by omega
    have h3 := Int.floor_lt.1 h2
    exact_mod_cast h3
  have hT : sqrtSticky fmt x * 2 ^ k = if (s * s : ℚ) = y then (s : ℚ) else s + 1 / 2 := by
    show (if (s * s : ℚ) = y then (s : ℚ) else s + 1 / 2) / 2 ^ k * 2 ^ k = _
    exact div_mul_cancel₀ _ (by positivity)
  have hw : Real.sqrt (x : ℝ) * 2 ^ k = Real.sqrt (y : ℝ) := by
    rw [hy]
    push_cast
    rw [Real.sqrt_mul (by exact_mod_cast hx.le), show (4 : ℝ) ^ k = (2 ^ k) ^ 2 by
      rw [← pow_mul, mul_comm, pow_mul]; norm_num, Real.sqrt_sq (by positivity)]
  rw [hT, hw]
  by_cases he : (s * s : ℚ) = y
  · left
    rw [if_pos he, ← he]
    push_cast
    rw [Real.sqrt_mul_self (by positivity)]
  · right
    rw [if_neg he]
    refine ⟨s, ⟨by push_cast; linarith, by push_cast; linarith⟩, ?_, ?_⟩
    · apply Real.lt_sqrt_of_sq_lt
      have h : (s * s : ℚ) < y := lt_of_le_of_ne hsy he
      rw [sq]
      exact_mod_cast h
    · rw [Real.sqrt_lt' (by positivity), sq]
      exact_mod_cast hsy'

/-- the rational number lies on the same side of every multiple of `2^-k` as the square root -/
theorem le_sticky_iff {x : ℚ} (hx : 0 < x) (j : ℤ) :
    (j : ℚ) / 2 ^ stickyBits fmt x ≤ sqrtSticky fmt x ↔
      (j : ℝ) / 2 ^ stickyBits fmt x ≤ Real.sqrt (x : ℝ) := by
  rw [div_le_iff₀ (by positivity), div_le_iff₀ (by positivity)]
  rcases sticky_cases (fmt := fmt) hx with h | ⟨s, ⟨h1, h2⟩, h3, h4⟩
  · rw [← h]
    exact_mod_cast Iff.rfl
  · constructor
    · intro h
      have : (j : ℚ) < ((s + 1 : ℤ) : ℚ) := by push_cast; linarith
      have : j ≤ s := by have := Int.cast_lt.1 this; omega
      have : (j : ℝ) ≤ s := by exact_mod_cast this
      linarith
    · intro h
      have : (j : ℝ) < ((s + 1 : ℤ) : ℝ) := by push_cast; linarith
      have : j ≤ s := by have := Int.cast_lt.1 this; omega
      have : (j : ℚ) ≤ s := by exact_mod_cast this
      linarith

theorem sticky_le_iff {x : ℚ} (hx : 0 < x) (j : ℤ) :
    sqrtSticky fmt x ≤ (j : ℚ) / 2 ^ stickyBits fmt x ↔
      Real.sqrt (x : ℝ) ≤ (j : ℝ) / 2 ^ stickyBits fmt x := by
  rw [le_div_iff₀ (by positivity), le_div_iff₀ (by positivity)]
  rcases sticky_cases (fmt := fmt) hx with h | ⟨s, ⟨h1, h2⟩, h3, h4⟩
  · rw [← h]
    exact_mod_cast Iff.rfl
  · constructor
    · intro h
      have : ((s : ℤ) : ℚ) < j := by linarith
      have : s + 1 ≤ j := by have := Int.cast_lt.1 this; omega
      have : ((s + 1 : ℤ) : ℝ) ≤ j := by exact_mod_cast this
      push_cast at this
      linarith
    · intro h
      have : ((s : ℤ) : ℝ) < j := by linarith
      have : s + 1 ≤ j := by have := Int.cast_lt.1 this; omega
      have : ((s + 1 : ℤ) : ℚ) ≤ j := by exact_mod_cast this
      push_cast at this
      linarith

/-- a multiple of a power of two that is not too small is a multiple of `2^-k` -/
theorem pow_multiple {x : ℚ} {e : ℤ} (he : -(stickyBits fmt x : ℤ) ≤ e) (n : ℤ) :
    ∃ j : ℤ, ((n : ℚ) * 2 ^ e = (j : ℚ) / 2 ^ stickyBits fmt x) ∧
      ((n : ℝ) * 2 ^ e = (j : ℝ) / 2 ^ stickyBits fmt x) := by
  refine ⟨n * 2 ^ (e + stickyBits fmt x).toNat, ?_, ?_⟩
  all_goals
    rw [eq_div_iff (by positivity)]
    push_cast
    rw [mul_assoc, ← zpow_natCast, ← zpow_natCast, ← zpow_add₀ (by norm_num),
      Int.toNat_of_nonneg (by omega)]

theorem le_sticky_pow {x : ℚ} (hx : 0 < x) {e : ℤ} (he : -(stickyBits fmt x : ℤ) ≤ e) (n : ℤ) :
    (n : ℚ) * 2 ^ e ≤ sqrtSticky fmt x ↔ (n : ℝ) * 2 ^ e ≤ Real.sqrt (x : ℝ) := by
  obtain ⟨j, h1, h2⟩ := pow_multiple (fmt := fmt) he n
  rw [h1, h2]
  exact le_sticky_iff hx j

theorem sticky_le_pow {x : ℚ} (hx : 0 < x) {e : ℤ} (he : -(stickyBits fmt x : ℤ) ≤ e) (n : ℤ) :
    sqrtSticky fmt x ≤ (n : ℚ) * 2 ^ e ↔ Real.sqrt (x : ℝ) ≤ (n : ℝ) * 2 ^ e := by
  obtain ⟨j, h1, h2⟩ := pow_multiple (fmt := fmt) he n
  rw [h1, h2]
  exact sticky_le_iff hx j

/-- the exponent of the square root -/
theorem sqrt_between {x : ℚ} (hx : 0 < x) :
    (2 : ℝ) ^ (Int.log 2 x / 2) ≤ Real.sqrt (x : ℝ) ∧
      Real.sqrt (x : ℝ) < 2 ^ (Int.log 2 x / 2 + 1) := by
  have h1 : (2 : ℚ) ^ Int.log 2 x ≤ x := by
    exact_mod_cast Int.zpow_log_le_self (b := 2) (by norm_num) hx
  have h2 : x < (2 : ℚ) ^ (Int.log 2 x + 1) := by
    exact_mod_cast Int.lt_zpow_succ_log_self (b := 2) (by norm_num) x
  constructor
  · apply Real.le_sqrt_of_sq_le
    have h3 : ((2 : ℚ) ^ (Int.log 2 x / 2)) ^ 2 ≤ x := by
      rw [← zpow_natCast, ← zpow_mul]
      refine le_trans (zpow_le_zpow_right₀ (by norm_num) ?_) h1
      push_cast
      omega
    have h4 := (Rat.cast_le (K := ℝ)).2 h3
    push_cast at h4
    exact h4
  · rw [Real.sqrt_lt' (zpow_pos (by norm_num) _)]
    have h3 : x < ((2 : ℚ) ^ (Int.log 2 x / 2 + 1)) ^ 2 := by
      rw [← zpow_natCast, ← zpow_mul]
      refine lt_of_lt_of_le h2 (zpow_le_zpow_right₀ (by norm_num) ?_)
      push_cast
      omega
    have h4 := (Rat.cast_lt (K := ℝ)).2 h3
    push_cast at h4
    exact h4

theorem stickyBits_ge (x : ℚ) :
    (fmt.prec + 2 - Int.log 2 x / 2 : Int) ≤ stickyBits fmt x := Int.self_le_toNat _

theorem sticky_pos {x : ℚ} (hx : 0 < x) : 0 < sqrtSticky fmt x := by
  have hb := stickyBits_ge (fmt := fmt) x
  have := (le_sticky_pow (fmt := fmt) hx (e := Int.log 2 x / 2) (by omega) 1).2
    (by simpa using (sqrt_between hx).1)
  have h2 : (0 : ℚ) < 2 ^ (Int.log 2 x / 2) := zpow_pos (by norm_num) _
  push_cast at this
  linarith

theorem log_sticky {x : ℚ} (hx : 0 < x) : Int.log 2 (sqrtSticky fmt x) = Int.log 2 x / 2 := by
  have hb := stickyBits_ge (fmt := fmt) x
  have hp := sticky_pos (fmt := fmt) hx
  have h1 := (le_sticky_pow (fmt := fmt) hx (e := Int.log 2 x / 2) (by omega) 1).2
    (by simpa using (sqrt_between hx).1)
  have h2 := (not_congr (le_sticky_pow (fmt := fmt) hx (e := Int.log 2 x / 2 + 1) (by omega) 1)).2
    (by simpa using (sqrt_between hx).2)
  push_cast at h1 h2
  rw [one_mul] at h1 h2
  have h3 := (Int.zpow_le_iff_le_log (b := 2) (by norm_num) hp).1 (by exact_mod_cast h1)
  have h4 := (Int.lt_zpow_iff_log_lt (b := 2) (by norm_num) hp).1 (by exact_mod_cast not_le.1 h2)
  omega

/-- the spacing of the numbers around the square root of `x` -/
def sqrtExp (fmt : Fmt) (x : ℚ) : ℤ := max (Int.log 2 x / 2 - (fmt.prec - 1 : Int)) fmt.emin

/-- the rounded square root: an integer multiple of the spacing, off by at most half of it -/
theorem roundPos_sticky {x : ℚ} (hx : 0 < x) :
    ∃ n : ℤ, fmt.roundPos (sqrtSticky fmt x) = n * 2 ^ sqrtExp fmt x ∧
      ((2 * n - 1 : ℤ) : ℝ) * 2 ^ (sqrtExp fmt x - 1) ≤ Real.sqrt (x : ℝ) ∧
      Real.sqrt (x : ℝ) ≤ ((2 * n + 1 : ℤ) : ℝ) * 2 ^ (sqrtExp fmt x - 1) := by
  have hb := stickyBits_ge (fmt := fmt) x
  have hu : fmt.ulp (sqrtSticky fmt x) = 2 ^ sqrtExp fmt x := by
    unfold Fmt.ulp sqrtExp
    rw [log_sticky hx]
  refine ⟨Ext.roundHalfEven (sqrtSticky fmt x / 2 ^ sqrtExp fmt x), ?_, ?_, ?_⟩
  · unfold Fmt.roundPos
    rw [hu]
  all_goals
    have he : -(stickyBits fmt x : ℤ) ≤ sqrtExp fmt x - 1 := by unfold sqrtExp; omega
    have hup : (0 : ℚ) < 2 ^ sqrtExp fmt x := zpow_pos (by norm_num) _
    have herr := Fmt.roundHalfEven_err (sqrtSticky fmt x / 2 ^ sqrtExp fmt x)
    set n := Ext.roundHalfEven (sqrtSticky fmt x / 2 ^ sqrtExp fmt x)
    have h2 : (2 : ℚ) ^ (sqrtExp fmt x - 1) = 2 ^ sqrtExp fmt x / 2 := by
      rw [zpow_sub_one₀ (by norm_num)]; rfl
    have hs : sqrtSticky fmt x = sqrtSticky fmt x / 2 ^ sqrtExp fmt x * 2 ^ sqrtExp fmt x :=
      (div_mul_cancel₀ _ hup.ne').symm
    rw [abs_le] at herr
  · apply (le_sticky_pow hx he _).1
    rw [h2]
    push_cast
    nlinarith
  · apply (sticky_le_pow hx he _).1
    rw [h2]
    push_cast
    nlinarith

/-- no multiple of the spacing is nearer to the exact root -/
theorem sqrt_nearest_multiple {x : ℚ} (hx : 0 < x) (m : ℤ) :
    |((fmt.roundPos (sqrtSticky fmt x) : ℚ) : ℝ) - Real.sqrt (x : ℝ)|
      ≤ |(m : ℝ) * 2 ^ sqrtExp fmt x - Real.sqrt (x : ℝ)| := by
  obtain ⟨n, h1, h2, h3⟩ := roundPos_sticky (fmt := fmt) hx
  rw [h1]
  push_cast at h2 h3 ⊢
  have hE : (0 : ℝ) < 2 ^ sqrtExp fmt x := zpow_pos (by norm_num) _
  rw [show (2 : ℝ) ^ (sqrtExp fmt x - 1) = 2 ^ sqrtExp fmt x / 2 by
    rw [zpow_sub_one₀ (by norm_num)]; rfl] at h2 h3
  set E : ℝ := 2 ^ sqrtExp fmt x
  set w := Real.sqrt (x : ℝ)
  have hle : |(n : ℝ) * E - w| ≤ E / 2 := by
    rw [abs_le]
    constructor <;> linarith
  rcases lt_trichotomy m n with h | h | h
  · have h' : (m : ℝ) ≤ n - 1 := by
      have : m ≤ n - 1 := by omega
      exact_mod_cast this
    have : (m : ℝ) * E ≤ n * E - E := by nlinarith
    refine hle.trans (le_trans ?_ (neg_le_abs _))
    linarith
  · rw [h]
  · have h' : (n : ℝ) + 1 ≤ m := by exact_mod_cast h
    have : (n : ℝ) * E + E ≤ m * E := by nlinarith
    refine hle.trans (le_trans ?_ (le_abs_self _))
    linarith

/-- the square root is correctly rounded: no number of the format is nearer to the exact root -/
theorem sqrt_nearest {x y : ℚ} (hx : 0 < x) (hy0 : 0 ≤ y) (hy : fmt.roundPos y = y) :
    |((fmt.roundPos (sqrtSticky fmt x) : ℚ) : ℝ) - Real.sqrt (x : ℝ)|
      ≤ |(y : ℝ) - Real.sqrt (x : ℝ)| := by
  have hu : fmt.ulp (sqrtSticky fmt x) = 2 ^ sqrtExp fmt x := by
    unfold Fmt.ulp sqrtExp
    rw [log_sticky hx]
  have hlog := log_sticky (fmt := fmt) hx
  rcases hy0.eq_or_lt with rfl | hy1
  · simpa using sqrt_nearest_multiple (fmt := fmt) hx 0
  by_cases h : fmt.uexp (sqrtSticky fmt x) ≤ fmt.uexp y
  · obtain ⟨m, hm⟩ := fmt.multiple_of_grid h hy
    rw [hm, hu]
    push_cast
    exact sqrt_nearest_multiple hx m
  · -- `y` lies below the largest power of two under the square root
    have hE : sqrtExp fmt x ≤ Int.log 2 x / 2 := by
      have := fmt.prec_pos
      unfold Fmt.uexp at h
      unfold sqrtExp
      omega
    have hlt : Int.log 2 y < Int.log 2 x / 2 := by
      unfold Fmt.uexp at h
      omega
    have hy2 : y < 2 ^ (Int.log 2 x / 2) := by
      exact_mod_cast (Int.lt_zpow_iff_log_lt (b := 2) (by norm_num) hy1).2 hlt
    have hy3 : (y : ℝ) < 2 ^ (Int.log 2 x / 2) := by
      have h4 := (Rat.cast_lt (K := ℝ)).2 hy2
      push_cast at h4
      exact h4
    have hb := (sqrt_between hx).1
    have hm := sqrt_nearest_multiple (fmt := fmt) hx
      (2 ^ (Int.log 2 x / 2 - sqrtExp fmt x).toNat)
    rw [show ((2 ^ (Int.log 2 x / 2 - sqrtExp fmt x).toNat : ℤ) : ℝ) * 2 ^ sqrtExp fmt x
        = 2 ^ (Int.log 2 x / 2) by
      push_cast
      rw [← zpow_natCast, Int.toNat_of_nonneg (by omega), ← zpow_add₀ (by norm_num)]
      congr 1
      ring] at hm
    refine hm.trans ?_
    rw [abs_of_nonpos (by linarith), abs_of_nonpos (by linarith)]
    linarith

/-- relative error of the square root of a number whose root is not subnormal -/
theorem sqrt_rel {x : ℚ} (hx : 0 < x) (hn : fmt.emin ≤ Int.log 2 x / 2 - (fmt.prec - 1 : Int)) :
    |((fmt.roundPos (sqrtSticky fmt x) : ℚ) : ℝ) - Real.sqrt (x : ℝ)|
      ≤ Real.sqrt (x : ℝ) * 2 ^ (-(fmt.prec : ℤ)) := by
  obtain ⟨n, h1, h2, h3⟩ := roundPos_sticky (fmt := fmt) hx
  rw [h1]
  have hE : sqrtExp fmt x = Int.log 2 x / 2 - (fmt.prec - 1 : Int) := by
    unfold sqrtExp; omega
  have e1 : (2 : ℝ) ^ (sqrtExp fmt x - 1) = 2 ^ (Int.log 2 x / 2) * 2 ^ (-(fmt.prec : ℤ)) := by
    rw [← zpow_add₀ (by norm_num), hE]
    congr 1
    ring
  have e2 : (2 : ℝ) ^ sqrtExp fmt x = 2 * 2 ^ (sqrtExp fmt x - 1) := by
    rw [mul_comm, zpow_sub_one₀ (by norm_num)]
    field_simp
  have hb := (sqrt_between hx).1
  have hu : (0 : ℝ) < 2 ^ (-(fmt.prec : ℤ)) := zpow_pos (by norm_num) _
  have h4 : (2 : ℝ) ^ (sqrtExp fmt x - 1) ≤ Real.sqrt (x : ℝ) * 2 ^ (-(fmt.prec : ℤ)) := by
    rw [e1]
    exact mul_le_mul_of_nonneg_right hb hu.le
  push_cast at h2 h3 ⊢
  rw [e2]
  set e : ℝ := 2 ^ (sqrtExp fmt x - 1)
  rw [abs_le]
  constructor <;> nlinarith

end Flt
end GChop
