import Verif.Lemmas.AlignedError
import Verif.Props.PotentialError

/-! # The cut radius of `star_align` in doubles

A star that is clear of the cut radius is on the same side of it in doubles and in exact arithmetic.
Used by C117. -/

namespace GChop
open Flt Matrix

/-- the smallest positive number of a format -/
theorem Flt.least_pos {fmt : Fmt} {a : Flt fmt} {v : ℚ} (h : toExt a = .fin v) (hv : 0 < v) :
    (2 : ℚ) ^ fmt.emin ≤ v := by
  have hg := grid_of_toExt h
  rw [fmt.srnd_of_nonneg hv.le] at hg
  obtain ⟨n, hn⟩ := fmt.multiple_of_grid (le_refl (fmt.uexp v)) hg
  have hu : (2 : ℚ) ^ fmt.emin ≤ fmt.ulp v := by
    rw [fmt.ulp_eq]
    exact zpow_le_zpow_right₀ (by norm_num) (by unfold Fmt.uexp; omega)
  have h2 : (0 : ℚ) < 2 ^ fmt.emin := zpow_pos (by norm_num) _
  have hu0 : 0 < fmt.ulp v := h2.trans_le hu
  have hn0 : (0 : ℚ) < n := by
    by_contra hc
    have := mul_nonpos_of_nonpos_of_nonneg (not_lt.1 hc) hu0.le
    linarith
  have hn1 : (1 : ℚ) ≤ n := by exact_mod_cast hn0
  rw [hn]
  nlinarith

/-- the square root of a double that has no minus sign -/
theorem sqrt_double {a : Float64} (hp : Plus a) (fa : Num.isFinite a = true) :
    0 ≤ (value a : ℝ) ∧ Num.isFinite (Num.sqrt a) = true ∧ 0 ≤ (value (Num.sqrt a) : ℝ) ∧
      |(value (Num.sqrt a) : ℝ) - Real.sqrt (value a)| ≤ Real.sqrt (value a) / 2 ^ 52 := by
  have e := toExt_value fa
  obtain ⟨v0, v1⟩ : 0 ≤ value a ∧ value a ≤ 2 ^ (2 * 512 : ℤ) := by
    rcases hp with rfl | rfl | ⟨m, rfl⟩
    · cases fa
    · cases fa
    · refine ⟨m.nonneg, m.le_max.trans ?_⟩
      show (2 - 2 ^ (-52 : ℤ) : ℚ) * 2 ^ (1023 : ℤ) ≤ 2 ^ (1024 : ℤ)
      rw [show (2 : ℚ) ^ (1024 : ℤ) = 2 * 2 ^ (1023 : ℤ) by
        rw [← zpow_one_add₀ (by norm_num)]; norm_num]
      exact mul_le_mul_of_nonneg_right (by norm_num) (zpow_pos (by norm_num) _).le
  have near : Near a (2 * (-537)) (2 * 512) (2 * 0) (value a : ℝ) := by
    refine ⟨by exact_mod_cast v0, value a, e, ?_, Close.refl _ _⟩
    rcases v0.eq_or_lt with h | h
    · exact Or.inl h.symm
    · refine Or.inr ⟨Flt.least_pos e h, v1⟩
  obtain ⟨_, w, e, m, c⟩ := Near.sqrt near (by decide) (by decide)
  have hunit : Fmt.binary64.unit = 1 / 2 ^ 53 := by
    show (2 : ℝ) ^ (-53 : ℤ) = _
    norm_num
  have hr := Fmt.Close.err Fmt.binary64 c (by exact_mod_cast m.nonneg) (Real.sqrt_nonneg _)
    (by rw [hunit]; norm_num)
  rw [hunit] at hr
  norm_num only [Nat.cast_zero, Nat.cast_one, zero_add, mul_one] at hr
  refine ⟨by exact_mod_cast v0, isFinite_of e, ?_, ?_⟩
  · rw [value_eq e]
    exact_mod_cast m.nonneg
  · rw [value_eq e]
    refine hr.trans ?_
    have := Real.sqrt_nonneg (value a : ℝ)
    norm_num
    linarith

/-- the square of the radius -/
theorem NearBody.radius_fuzzy {a : Body Float64} {k : KBody ℝ} (h : NearBody a k) :
    Fuzzy ((Num.sq a.x +. Num.sq a.y) +. Num.sq a.z) (k.r ⬝ᵥ k.r) (3 * sizeOf3 k.r ^ 2) 8 := by
  have hp := h.pos_fuzzy
  have hm := h.pos_mod
  have hS : Scale (sizeOf3 k.r * sizeOf3 k.r) := by
    have p := hm.pos
    constructor
    · refine le_trans ?_ (mul_le_mul hm.1 hm.1 (zpow_pos (by norm_num) _).le p.le)
      rw [← zpow_add₀ (by norm_num)]
      exact zpow_le_zpow_right₀ (by norm_num) (by norm_num)
    · refine (mul_le_mul hm.2 hm.2 p.le (zpow_pos (by norm_num) _).le).trans ?_
      rw [← zpow_add₀ (by norm_num)]
      exact zpow_le_zpow_right₀ (by norm_num) (by norm_num)
  have hT : 3 * (sizeOf3 k.r * sizeOf3 k.r) ≤ 2 ^ (1000 : ℤ) := by
    have p := hm.pos
    have h1 := mul_le_mul hm.2 hm.2 p.le (zpow_pos (by norm_num : (0 : ℝ) < 2) 202).le
    have h2 : (4 : ℝ) * (2 ^ (202 : ℤ) * 2 ^ (202 : ℤ)) ≤ 2 ^ (1000 : ℤ) := by
      rw [show (4 : ℝ) = 2 ^ (2 : ℤ) by norm_num, ← zpow_add₀ (by norm_num), ← zpow_add₀ (by norm_num)]
      exact zpow_le_zpow_right₀ (by norm_num) (by norm_num)
    have h3 := mul_pos p p
    generalize (2 : ℝ) ^ (202 : ℤ) * 2 ^ (202 : ℤ) = A at *
    generalize (2 : ℝ) ^ (1000 : ℤ) = B at *
    linarith
  have p0 := hS.pos
  have sq : ∀ i, Fuzzy (a.pos i *. a.pos i) (k.r i * k.r i) (sizeOf3 k.r * sizeOf3 k.r) 4 := fun i => by
    have := (hp i).mul (hp i) (by norm_num) (by norm_num) hS
    norm_num at this
    exact this
  have s1 := (sq 0).add (sq 1) (by norm_num) (le_trans (by clear hT; linarith) hT)
  norm_num at s1
  have s2 := s1.add ((sq 2).mono le_rfl (by norm_num : (4 : ℝ) ≤ 6)) (by norm_num)
    ((le_of_eq (by ring)).trans hT)
  norm_num at s2
  rw [dot_self]
  have e : sizeOf3 k.r * sizeOf3 k.r + sizeOf3 k.r * sizeOf3 k.r + sizeOf3 k.r * sizeOf3 k.r
      = 3 * sizeOf3 k.r ^ 2 := by ring
  rw [e] at s2
  exact s2

/-- a star clear of the cut radius is on the right side of it -/
theorem NearBody.inside_cut {a : Body Float64} {k : KBody ℝ} (h : NearBody a k) {r : Float64}
    (fr : Num.isFinite r = true) (hr : 0 < value r)
    (hc : sizeOf3 k.r ^ 2 / 2 ^ 47 < |k.r ⬝ᵥ k.r - (value r : ℝ) ^ 2|) :
    (Body.inside (some r) a = true) ↔ k.r ⬝ᵥ k.r < (value r : ℝ) ^ 2 := by
  have f := h.radius_fuzzy
  have hr' : (0 : ℝ) < value r := by exact_mod_cast hr
  set S := (Num.sq a.x +. Num.sq a.y) +. Num.sq a.z with hS
  have hplus : Plus S := ((plus_sq _).add (plus_sq _)).add (plus_sq _)
  obtain ⟨v0, fw, w0, hw⟩ := sqrt_double hplus f.fin
  have q : Real.sqrt (value S : ℝ) * Real.sqrt (value S : ℝ) = value S := Real.mul_self_sqrt v0
  have herr := abs_le.1 f.err
  have hle := abs_le.1 f.le
  have hsize : 0 ≤ sizeOf3 k.r ^ 2 := sq_nonneg _
  rw [show Body.inside (some r) a = (Num.sqrt S <. r) from rfl, real_lt fw fr]
  generalize (value (Num.sqrt S) : ℝ) = w at *
  generalize hu : Real.sqrt (value S : ℝ) = u at *
  have u0 : 0 ≤ u := by rw [← hu]; exact Real.sqrt_nonneg _
  generalize (value S : ℝ) = v at *
  generalize (value r : ℝ) = ρ at *
  generalize k.r ⬝ᵥ k.r = D at *
  generalize sizeOf3 k.r ^ 2 = T at *
  have hw' := abs_le.1 hw
  clear hS hplus f hu fw hw
  have v4 : v ≤ 4 * T := by norm_num at herr ⊢; linarith
  have wu : w ^ 2 ≤ v + v / 2 ^ 50 := by
    have h1 : w ≤ u * (1 + 1 / 2 ^ 52) := by linarith
    have h2 : w ^ 2 ≤ (u * (1 + 1 / 2 ^ 52)) ^ 2 := pow_le_pow_left₀ w0 h1 2
    have h3 : (u * (1 + 1 / 2 ^ 52)) ^ 2 = v * (1 + 1 / 2 ^ 52) ^ 2 := by rw [← q]; ring
    rw [h3] at h2
    norm_num at h2 ⊢
    linarith
  have wl : v - v / 2 ^ 51 ≤ w ^ 2 := by
    have h1 : u * (1 - 1 / 2 ^ 52) ≤ w := by linarith
    have h2 : (u * (1 - 1 / 2 ^ 52)) ^ 2 ≤ w ^ 2 :=
      pow_le_pow_left₀ (mul_nonneg u0 (by norm_num)) h1 2
    have h3 : (u * (1 - 1 / 2 ^ 52)) ^ 2 = v * (1 - 1 / 2 ^ 52) ^ 2 := by rw [← q]; ring
    rw [h3] at h2
    norm_num at h2 ⊢
    linarith
  constructor
  · intro hlt
    by_contra hD
    have hD := not_lt.1 hD
    rw [abs_of_nonneg (by linarith)] at hc
    have h1 : w ^ 2 < ρ ^ 2 := pow_lt_pow_left₀ hlt w0 (by norm_num)
    norm_num at hc herr wl v4
    linarith
  · intro hD
    rw [abs_of_neg (by linarith)] at hc
    have h1 : w ^ 2 < ρ ^ 2 := by
      norm_num at hc herr wu v4
      linarith
    exact lt_of_pow_lt_pow_left₀ 2 hr'.le h1

end GChop
