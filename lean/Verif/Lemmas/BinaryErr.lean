import Verif.Lemmas.Binary

/-!
# Rounding errors of the binary formats
-/

namespace GChop
namespace Fmt
variable (fmt : Fmt)

/-! ### Rounding to nearest -/

theorem roundHalfEven_err (x : ℚ) : |(Ext.roundHalfEven x : ℚ) - x| ≤ 1 / 2 := by
  have h1 := Int.floor_le x
  have h2 := Int.lt_floor_add_one x
  unfold Ext.roundHalfEven
  dsimp only
  rw [abs_le]
  split_ifs <;> push_cast <;> constructor <;> linarith

/-- the rounded integer is nearest among all integers -/
theorem roundHalfEven_nearest (x : ℚ) (n : ℤ) : |(Ext.roundHalfEven x : ℚ) - x| ≤ |(n : ℚ) - x| := by
  have h1 := roundHalfEven_err x
  rcases lt_trichotomy n (Ext.roundHalfEven x) with h | h | h
  · have h' : (n : ℚ) + 1 ≤ Ext.roundHalfEven x := by exact_mod_cast h
    rw [abs_le] at h1
    have : (n : ℚ) - x ≤ -(1/2) := by linarith
    rw [abs_of_nonpos (a := (n : ℚ) - x) (by linarith), abs_le]
    constructor <;> linarith
  · rw [h]
  · have h' : (Ext.roundHalfEven x : ℚ) + 1 ≤ n := by exact_mod_cast h
    rw [abs_le] at h1
    rw [abs_of_nonneg (a := (n : ℚ) - x) (by linarith), abs_le]
    constructor <;> linarith

/-- ties go to the even neighbour -/
theorem roundHalfEven_tie (x : ℚ) (h : x - ⌊x⌋ = 1 / 2) : 2 ∣ Ext.roundHalfEven x := by
  unfold Ext.roundHalfEven
  dsimp only
  rw [if_neg (by rw [h]; norm_num), if_neg (by rw [h]; norm_num)]
  split_ifs with h2 <;> omega

/-- half a unit in the last place -/
theorem roundPos_err (x : ℚ) : |fmt.roundPos x - x| ≤ fmt.ulp x / 2 := by
  have hu := fmt.ulp_pos x
  have h := roundHalfEven_err (x / fmt.ulp x)
  have e : fmt.roundPos x - x = ((Ext.roundHalfEven (x / fmt.ulp x) : ℚ) - x / fmt.ulp x) * fmt.ulp x := by
    unfold roundPos
    field_simp
  rw [e, abs_mul, abs_of_pos hu]
  calc _ ≤ 1 / 2 * fmt.ulp x := mul_le_mul_of_nonneg_right h hu.le
    _ = _ := by ring

/-- nearest among the multiples of the spacing around `x` -/
theorem roundPos_nearest_multiple (x : ℚ) (n : ℤ) :
    |fmt.roundPos x - x| ≤ |n * fmt.ulp x - x| := by
  have hu := fmt.ulp_pos x
  have h := roundHalfEven_nearest (x / fmt.ulp x) n
  have e : ∀ t : ℚ, t * fmt.ulp x - x = (t - x / fmt.ulp x) * fmt.ulp x := by
    intro t
    field_simp
  unfold roundPos
  rw [e, e, abs_mul, abs_mul]
  exact mul_le_mul_of_nonneg_right h (abs_nonneg _)

/-- a number of the format in the binade of `x` or above it is a multiple of the spacing at `x` -/
theorem multiple_of_grid {x y : ℚ} (hu : fmt.uexp x ≤ fmt.uexp y) (hy : fmt.roundPos y = y) :
    ∃ n : ℤ, y = n * fmt.ulp x := by
  refine ⟨Ext.roundHalfEven (y / fmt.ulp y) * 2 ^ (fmt.uexp y - fmt.uexp x).toNat, ?_⟩
  have : fmt.ulp y = 2 ^ (fmt.uexp y - fmt.uexp x).toNat * fmt.ulp x := by
    rw [fmt.ulp_eq y, fmt.ulp_eq x, ← zpow_natCast, Int.toNat_of_nonneg (by omega),
      ← zpow_add₀ (by norm_num)]
    congr 1
    ring
  push_cast
  rw [mul_assoc, ← this]
  exact hy.symm

theorem uexp_mono {x y : ℚ} (hx : 0 < x) (h : x ≤ y) : fmt.uexp x ≤ fmt.uexp y := by
  unfold uexp
  have := Int.log_mono_right (b := 2) hx h
  omega

/-- **Round to nearest**: no number of the format is closer to `x` than the rounded one. -/
theorem roundPos_nearest {x y : ℚ} (hx : 0 < x) (hy0 : 0 ≤ y) (hy : fmt.roundPos y = y) :
    |fmt.roundPos x - x| ≤ |y - x| := by
  by_cases h : x ≤ y
  · obtain ⟨n, hn⟩ := fmt.multiple_of_grid (fmt.uexp_mono hx h) hy
    rw [hn]
    exact fmt.roundPos_nearest_multiple x n
  · push Not at h
    rcases hy0.eq_or_lt with rfl | hyp
    · simpa using fmt.roundPos_nearest_multiple x 0
    rcases le_or_gt (fmt.uexp x) (fmt.uexp y) with hu | hu
    · obtain ⟨n, hn⟩ := fmt.multiple_of_grid hu hy
      rw [hn]
      exact fmt.roundPos_nearest_multiple x n
    · -- `y` lies in a lower binade: the power of two at the bottom of the binade of `x` is closer
      have hlog : Int.log 2 y < Int.log 2 x := by
        unfold uexp at hu
        omega
      have hn : ¬ fmt.emin ≥ Int.log 2 x - (fmt.prec - 1 : Int) := by
        unfold uexp at hu
        omega
      have hp : y < 2 ^ Int.log 2 x := by
        have h1 := Int.lt_zpow_succ_log_self (R := ℚ) (b := 2) (by norm_num) y
        refine lt_of_lt_of_le h1 ?_
        exact_mod_cast zpow_le_zpow_right₀ (by norm_num : (1 : ℚ) ≤ 2) (by omega)
      have hq : (2 : ℚ) ^ Int.log 2 x ≤ x := by
        exact_mod_cast Int.zpow_log_le_self (R := ℚ) (b := 2) (by norm_num) hx
      have hm : (2 : ℚ) ^ Int.log 2 x = ((2 ^ (fmt.prec - 1) : ℤ) : ℚ) * fmt.ulp x := by
        have hpp := fmt.prec_pos
        have : fmt.uexp x = Int.log 2 x - (fmt.prec - 1 : Int) := by
          unfold uexp; omega
        rw [fmt.ulp_eq x, this]
        push_cast
        rw [← zpow_natCast, ← zpow_add₀ (by norm_num)]
        congr 1
        omega
      have h2 := fmt.roundPos_nearest_multiple x (2 ^ (fmt.prec - 1))
      rw [← hm] at h2
      refine h2.trans ?_
      rw [abs_of_nonpos (by linarith), abs_of_nonpos (by linarith)]
      linarith

/-- relative error in the normal range -/
theorem roundPos_rel {x : ℚ} (hx : 0 < x) (hn : fmt.emin ≤ Int.log 2 x - (fmt.prec - 1 : Int)) :
    |fmt.roundPos x - x| ≤ x * 2 ^ (-(fmt.prec : ℤ)) := by
  refine (fmt.roundPos_err x).trans ?_
  have hu : fmt.ulp x = 2 ^ Int.log 2 x * (2 ^ (-(fmt.prec : ℤ)) * 2) := by
    have : fmt.uexp x = Int.log 2 x + (-(fmt.prec : ℤ) + 1) := by unfold uexp; omega
    rw [fmt.ulp_eq x, this, zpow_add₀ (by norm_num), zpow_add₀ (by norm_num), zpow_one]
  have hq : (2 : ℚ) ^ Int.log 2 x ≤ x := by
    exact_mod_cast Int.zpow_log_le_self (R := ℚ) (b := 2) (by norm_num) hx
  have h2 : (0 : ℚ) < 2 ^ (-(fmt.prec : ℤ)) := zpow_pos (by norm_num) _
  rw [hu]
  calc _ = 2 ^ Int.log 2 x * 2 ^ (-(fmt.prec : ℤ)) := by ring
    _ ≤ _ := mul_le_mul_of_nonneg_right hq h2.le

/-! ### Integers -/

/-- an integer rounds to an integer -/
theorem roundPos_int (n : ℕ) : ∃ k : ℕ, fmt.roundPos (n : ℚ) = k := by
  rcases Nat.eq_zero_or_pos n with rfl | hn
  · exact ⟨0, by simpa using fmt.roundPos_zero⟩
  rcases le_or_gt (fmt.uexp (n : ℚ)) 0 with h | h
  · refine ⟨n, fmt.roundPos_of_multiple (n := n * 2 ^ (-fmt.uexp (n : ℚ)).toNat) ?_⟩
    rw [fmt.ulp_eq (n : ℚ)]
    push_cast
    rw [mul_assoc, ← zpow_natCast, Int.toNat_of_nonneg (by omega), ← zpow_add₀ (by norm_num)]
    simp
  · obtain ⟨k, hk⟩ : ∃ k : ℤ, fmt.roundPos (n : ℚ) = k := by
      refine ⟨Ext.roundHalfEven ((n : ℚ) / fmt.ulp n) * 2 ^ (fmt.uexp (n : ℚ)).toNat, ?_⟩
      unfold roundPos
      push_cast
      congr 1
      rw [fmt.ulp_eq (n : ℚ), ← zpow_natCast, Int.toNat_of_nonneg h.le]
    have h0 := fmt.roundPos_nonneg (x := (n : ℚ)) (by positivity)
    rw [hk] at h0
    have h0 : 0 ≤ k := by exact_mod_cast h0
    refine ⟨k.toNat, ?_⟩
    rw [hk]
    exact_mod_cast (Int.toNat_of_nonneg h0).symm

/-- integers up to `2^prec` are numbers of the format -/
theorem roundPos_nat {n : ℕ} (h : n ≤ 2 ^ fmt.prec) : fmt.roundPos (n : ℚ) = n := by
  rcases Nat.eq_zero_or_pos n with rfl | hn
  · simpa using fmt.roundPos_zero
  rcases h.lt_or_eq with h | h
  · have hlog : Int.log 2 (n : ℚ) ≤ fmt.prec - 1 := by
      have : Int.log 2 (n : ℚ) < fmt.prec := by
        rw [← Int.lt_zpow_iff_log_lt (by norm_num) (by exact_mod_cast hn)]
        rw [zpow_natCast]
        exact_mod_cast h
      omega
    have hu : fmt.uexp (n : ℚ) ≤ 0 := by
      unfold uexp
      have := fmt.emin_le
      have := fmt.prec_pos
      omega
    refine fmt.roundPos_of_multiple (n := n * 2 ^ (-fmt.uexp (n : ℚ)).toNat) ?_
    rw [fmt.ulp_eq (n : ℚ)]
    push_cast
    rw [mul_assoc, ← zpow_natCast, Int.toNat_of_nonneg (by omega), ← zpow_add₀ (by norm_num)]
    simp
  · subst h
    have hlog : Int.log 2 (((2 ^ fmt.prec : ℕ) : ℚ)) = fmt.prec := by
      push_cast
      rw [← zpow_natCast]
      exact_mod_cast Int.log_zpow (R := ℚ) (b := 2) (by norm_num) (fmt.prec : ℤ)
    have hu : fmt.uexp (((2 ^ fmt.prec : ℕ) : ℚ)) = 1 := by
      unfold uexp
      rw [hlog]
      have := fmt.emin_le
      have := fmt.prec_pos
      omega
    refine fmt.roundPos_of_multiple (n := 2 ^ (fmt.prec - 1)) ?_
    rw [fmt.ulp_eq (((2 ^ fmt.prec : ℕ) : ℚ)), hu]
    push_cast
    rw [← pow_succ]
    congr 1
    have := fmt.prec_pos
    omega

/-- absolute error below a power of two -/
theorem roundPos_abs_err {x : ℚ} {e : ℤ} (hx : 0 ≤ x) (h : x ≤ 2 ^ e) (he : fmt.emin ≤ e - fmt.prec) :
    |fmt.roundPos x - x| ≤ 2 ^ (e - fmt.prec) / 2 := by
  have hpos : (0 : ℚ) < 2 ^ (e - fmt.prec) := zpow_pos (by norm_num) _
  rcases hx.eq_or_lt with rfl | hx
  · rw [fmt.roundPos_zero]
    simp only [sub_self, abs_zero]
    positivity
  rcases h.lt_or_eq with h | h
  · have hlog : Int.log 2 x < e := (Int.lt_zpow_iff_log_lt (by norm_num) hx).1 (by exact_mod_cast h)
    refine (fmt.roundPos_err x).trans ?_
    have : fmt.ulp x ≤ 2 ^ (e - fmt.prec : ℤ) := by
      rw [fmt.ulp_eq x]
      apply zpow_le_zpow_right₀ (by norm_num)
      unfold uexp
      omega
    linarith
  · have hr : fmt.roundPos x = x := by
      have hlog : Int.log 2 x = e := by
        rw [h]
        exact_mod_cast Int.log_zpow (R := ℚ) (b := 2) (by norm_num) e
      have hu : fmt.uexp x = e - fmt.prec + 1 := by
        unfold uexp
        rw [hlog]
        omega
      refine fmt.roundPos_of_multiple (n := 2 ^ (fmt.prec - 1)) ?_
      rw [fmt.ulp_eq x, hu, h]
      push_cast
      rw [← zpow_natCast, ← zpow_add₀ (by norm_num)]
      congr 1
      have := fmt.prec_pos
      omega
    rw [hr]
    simp only [sub_self, abs_zero]
    positivity

/-! ### With signs -/

theorem srnd_neg (x : ℚ) : fmt.srnd (-x) = -fmt.srnd x := by
  unfold srnd
  rcases lt_trichotomy x 0 with h | h | h
  · rw [if_neg (by linarith), if_pos h, neg_neg]
  · subst h
    simp [roundPos_zero]
  · rw [if_pos (by linarith), if_neg (by linarith), neg_neg]

theorem srnd_of_nonneg {x : ℚ} (h : 0 ≤ x) : fmt.srnd x = fmt.roundPos x := by
  unfold srnd
  rw [if_neg (by linarith)]

theorem srnd_abs (x : ℚ) : |fmt.srnd x| = fmt.roundPos |x| := by
  rcases le_total 0 x with h | h
  · rw [fmt.srnd_of_nonneg h, abs_of_nonneg h, abs_of_nonneg (fmt.roundPos_nonneg h)]
  · have : x = -(-x) := by ring
    rw [this, srnd_neg, abs_neg, abs_neg, fmt.srnd_of_nonneg (by linarith),
      abs_of_nonneg (by linarith : 0 ≤ -x), abs_of_nonneg (fmt.roundPos_nonneg (by linarith))]

theorem srnd_abs_err {x : ℚ} {e : ℤ} (h : |x| ≤ 2 ^ e) (he : fmt.emin ≤ e - fmt.prec) :
    |fmt.srnd x - x| ≤ 2 ^ (e - fmt.prec) / 2 := by
  rcases le_total 0 x with h0 | h0
  · rw [fmt.srnd_of_nonneg h0]
    exact fmt.roundPos_abs_err h0 (by rwa [abs_of_nonneg h0] at h) he
  · have := fmt.roundPos_abs_err (x := -x) (by linarith) (by rwa [abs_of_nonpos h0] at h) he
    rw [← fmt.srnd_of_nonneg (by linarith), srnd_neg, ← abs_neg] at this
    convert this using 2
    ring

/-- a number of the format bounds the rounded numbers below it -/
theorem srnd_le {x y : ℚ} (h : x ≤ y) (hy : fmt.srnd y = y) : fmt.srnd x ≤ y := by
  rw [← hy]
  exact fmt.srnd_mono h

theorem le_srnd {x y : ℚ} (h : y ≤ x) (hy : fmt.srnd y = y) : y ≤ fmt.srnd x := by
  rw [← hy]
  exact fmt.srnd_mono h

theorem abs_srnd_le {x y : ℚ} (h : |x| ≤ y) (hy : fmt.srnd y = y) : |fmt.srnd x| ≤ y := by
  rw [abs_le] at h ⊢
  refine ⟨fmt.le_srnd h.1 ?_, fmt.srnd_le h.2 hy⟩
  rw [srnd_neg, hy]

theorem clip_fin {r : ℚ} (h : |r| ≤ fmt.maxFin) : fmt.clip r = .fin r := by
  unfold clip
  rw [if_pos h]

end Fmt

namespace Flt
variable {fmt : Fmt}

theorem toExt_fin {a : Flt fmt} {v : ℚ} (h : toExt a = .fin v) : ∃ s m, a = fin s m ∧ sval s m = v := by
  cases a with
  | fin s m => exact ⟨s, m, rfl, by simpa [toExt] using h⟩
  | inf s => cases s <;> simp [toExt] at h
  | nan => simp [toExt] at h

theorem toExt_add {a b : Flt fmt} {v w : ℚ} (ha : toExt a = .fin v) (hb : toExt b = .fin w) :
    toExt (a +. b) = fmt.clip (fmt.srnd (v + w)) := by
  obtain ⟨s, m, rfl, rfl⟩ := toExt_fin ha
  obtain ⟨t, n, rfl, rfl⟩ := toExt_fin hb
  exact toExt_ofExact _ _

theorem toExt_neg {a : Flt fmt} {v : ℚ} (ha : toExt a = .fin v) : toExt (neg a) = .fin (-v) := by
  obtain ⟨s, m, rfl, rfl⟩ := toExt_fin ha
  exact congrArg Ext.fin (sval_not s m)

theorem toExt_sub {a b : Flt fmt} {v w : ℚ} (ha : toExt a = .fin v) (hb : toExt b = .fin w) :
    toExt (a -. b) = fmt.clip (fmt.srnd (v - w)) := by
  rw [sub_eq_add_neg]
  exact toExt_add ha (toExt_neg hb)

theorem toExt_mul {a b : Flt fmt} {v w : ℚ} (ha : toExt a = .fin v) (hb : toExt b = .fin w) :
    toExt (a *. b) = fmt.clip (fmt.srnd (v * w)) := by
  obtain ⟨s, m, rfl, rfl⟩ := toExt_fin ha
  obtain ⟨t, n, rfl, rfl⟩ := toExt_fin hb
  exact toExt_ofExact _ _

theorem toExt_div {a b : Flt fmt} {v w : ℚ} (ha : toExt a = .fin v) (hb : toExt b = .fin w)
    (hw : w ≠ 0) : toExt (a /. b) = fmt.clip (fmt.srnd (v / w)) := by
  obtain ⟨s, m, rfl, rfl⟩ := toExt_fin ha
  obtain ⟨t, n, rfl, rfl⟩ := toExt_fin hb
  have hn : n.val ≠ 0 := fun h => hw (sval_of_zero h)
  show toExt (div (fin s m) (fin t n)) = _
  rw [div_fin, if_neg hn]
  exact toExt_ofExact _ _

theorem toExt_rint {a : Flt fmt} {v : ℚ} (ha : toExt a = .fin v) :
    toExt (rint a) = fmt.clip (fmt.srnd (Ext.roundHalfEven v)) := by
  obtain ⟨s, m, rfl, rfl⟩ := toExt_fin ha
  exact toExt_ofExact _ _

end Flt
end GChop
