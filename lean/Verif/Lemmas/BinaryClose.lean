import Verif.Lemmas.BinarySqrt
import Verif.Lemmas.FltOrder

/-!
# Relative errors of IEEE-754 computations with numbers that are not negative

`Close q k a b` says that `a` and `b` agree up to `k` roundings.  `Near` follows a computed number
through additions, products, quotients and square roots as long as nothing overflows or underflows.
-/

namespace GChop

/-- equal up to a factor between `q^-k` and `q^k` -/
def Close (q : ℝ) (k : ℕ) (a b : ℝ) : Prop := a ≤ q ^ k * b ∧ b ≤ q ^ k * a

namespace Close
variable {q : ℝ} {k l : ℕ} {a b c d : ℝ}

theorem refl (q : ℝ) (a : ℝ) : Close q 0 a a := by simp [Close]

theorem trans (hq : 1 ≤ q) (h1 : Close q k a b) (h2 : Close q l b c) : Close q (k + l) a c := by
  have hk : 0 < q ^ k := by positivity
  have hl : 0 < q ^ l := by positivity
  refine ⟨h1.1.trans ?_, h2.2.trans ?_⟩
  · rw [pow_add, mul_assoc]
    exact mul_le_mul_of_nonneg_left h2.1 hk.le
  · rw [pow_add, mul_comm (q ^ k), mul_assoc]
    exact mul_le_mul_of_nonneg_left h1.2 hl.le

theorem mono (hq : 1 ≤ q) (ha : 0 ≤ a) (hb : 0 ≤ b) (h : Close q k a b) (hkl : k ≤ l) :
    Close q l a b := by
  have := pow_le_pow_right₀ hq hkl
  exact ⟨h.1.trans (mul_le_mul_of_nonneg_right this hb),
    h.2.trans (mul_le_mul_of_nonneg_right this ha)⟩

theorem add (h1 : Close q k a b) (h2 : Close q k c d) : Close q k (a + c) (b + d) := by
  unfold Close at *
  constructor <;> rw [mul_add] <;> linarith [h1.1, h1.2, h2.1, h2.2]

theorem mul (hq : 1 ≤ q) (ha : 0 ≤ a) (hb : 0 ≤ b) (hc : 0 ≤ c) (hd : 0 ≤ d)
    (h1 : Close q k a b) (h2 : Close q l c d) : Close q (k + l) (a * c) (b * d) := by
  have hk : 0 < q ^ k := by positivity
  have hl : 0 < q ^ l := by positivity
  constructor
  · calc a * c ≤ (q ^ k * b) * (q ^ l * d) := mul_le_mul h1.1 h2.1 hc (by positivity)
      _ = _ := by rw [pow_add]; ring
  · calc b * d ≤ (q ^ k * a) * (q ^ l * c) := mul_le_mul h1.2 h2.2 hd (by positivity)
      _ = _ := by rw [pow_add]; ring

theorem inv (ha : 0 < a) (hb : 0 < b) (h : Close q k a b) : Close q k a⁻¹ b⁻¹ := by
  constructor
  · rw [inv_eq_one_div, div_le_iff₀ ha]
    have := h.2
    rw [mul_assoc, mul_comm b⁻¹, ← mul_assoc, ← div_eq_mul_inv, le_div_iff₀ hb]
    linarith
  · rw [inv_eq_one_div, div_le_iff₀ hb]
    have := h.1
    rw [mul_assoc, mul_comm a⁻¹, ← mul_assoc, ← div_eq_mul_inv, le_div_iff₀ ha]
    linarith

theorem sqrt (hq : 1 ≤ q) (h : Close q (2 * k) a b) :
    Close q k (Real.sqrt a) (Real.sqrt b) := by
  have hk : 0 ≤ q ^ k := by positivity
  have aux : ∀ {x y : ℝ}, x ≤ q ^ (2 * k) * y → Real.sqrt x ≤ q ^ k * Real.sqrt y := by
    intro x y h
    calc Real.sqrt x ≤ Real.sqrt (q ^ (2 * k) * y) := Real.sqrt_le_sqrt h
      _ = _ := by
        rw [Real.sqrt_mul (by positivity), mul_comm 2 k, pow_mul, Real.sqrt_sq hk]
  exact ⟨aux h.1, aux h.2⟩

end Close

namespace Fmt
variable (fmt : Fmt)

/-- the unit roundoff -/
noncomputable def unit : ℝ := 2 ^ (-(fmt.prec : ℤ))

/-- one rounding changes a number by a factor between `1/q` and `q` -/
noncomputable def q : ℝ := (1 - fmt.unit)⁻¹

theorem unit_pos : 0 < fmt.unit := zpow_pos (by norm_num) _

theorem unit_le : fmt.unit ≤ 1 / 2 := by
  have hp := fmt.prec_pos
  have : fmt.unit ≤ 2 ^ (-1 : ℤ) := zpow_le_zpow_right₀ (by norm_num) (by omega)
  simpa using this

theorem one_le_q : 1 ≤ fmt.q := by
  have h1 := fmt.unit_pos
  have h2 := fmt.unit_le
  exact (one_le_inv₀ (by linarith)).2 (by linarith)

/-- a rounding error of one unit roundoff -/
theorem close_of_err {a b : ℝ} (h : |a - b| ≤ b * fmt.unit) : Close fmt.q 1 a b := by
  have h1 := fmt.unit_pos
  have h2 := fmt.unit_le
  have h3 : 0 < 1 - fmt.unit := by linarith
  rw [abs_le] at h
  unfold Close q
  rw [pow_one]
  constructor
  · rw [inv_mul_eq_div, le_div_iff₀ h3]
    nlinarith [mul_self_nonneg fmt.unit]
  · rw [inv_mul_eq_div, le_div_iff₀ h3]
    nlinarith

theorem pow_le_maxFin {e : ℤ} (he : e ≤ fmt.emax) : (2 : ℚ) ^ e ≤ fmt.maxFin := by
  have hp := fmt.prec_pos
  have h1 : (2 : ℚ) ^ e ≤ 2 ^ fmt.emax := zpow_le_zpow_right₀ (by norm_num) he
  have h2 : (2 : ℚ) ^ (1 - fmt.prec : Int) ≤ 1 := zpow_le_one_of_nonpos₀ (by norm_num) (by omega)
  have h3 : (0 : ℚ) < 2 ^ fmt.emax := zpow_pos (by norm_num) _
  unfold maxFin
  nlinarith

theorem srnd_pow {e : ℤ} (he : fmt.emin + (fmt.prec - 1 : Int) ≤ e) :
    fmt.srnd ((2 : ℚ) ^ e) = 2 ^ e := by
  have h0 : (0 : ℚ) < 2 ^ e := zpow_pos (by norm_num) _
  have hp := fmt.prec_pos
  have hlog : Int.log 2 ((2 : ℚ) ^ e) = e := by
    exact_mod_cast Int.log_zpow (R := ℚ) (b := 2) (by norm_num) e
  have hu : fmt.uexp ((2 : ℚ) ^ e) ≤ e := by unfold uexp; rw [hlog]; omega
  rw [fmt.srnd_of_nonneg h0.le]
  exact le_antisymm (fmt.roundPos_le_pow hu le_rfl) (fmt.pow_le_roundPos hu le_rfl)

/-- the number is zero or between two powers of two -/
def Mid (lo hi : ℤ) (v : ℚ) : Prop := v = 0 ∨ ((2 : ℚ) ^ lo ≤ v ∧ v ≤ 2 ^ hi)

variable {fmt}

theorem Mid.nonneg {lo hi : ℤ} {v : ℚ} (h : Mid lo hi v) : 0 ≤ v := by
  rcases h with rfl | h
  · exact le_rfl
  · exact (zpow_pos (by norm_num) _).le.trans h.1

theorem Mid.le {lo hi : ℤ} {v : ℚ} (h : Mid lo hi v) : v ≤ 2 ^ hi := by
  rcases h with rfl | h
  · exact (zpow_pos (by norm_num) _).le
  · exact h.2

theorem Mid.mono {lo hi lo' hi' : ℤ} {v : ℚ} (h : Mid lo hi v) (h1 : lo' ≤ lo) (h2 : hi ≤ hi') :
    Mid lo' hi' v := by
  rcases h with rfl | h
  · exact Or.inl rfl
  · exact Or.inr ⟨(zpow_le_zpow_right₀ (by norm_num) h1).trans h.1,
      h.2.trans (zpow_le_zpow_right₀ (by norm_num) h2)⟩

theorem Mid.add {lo hi : ℤ} {v w : ℚ} (h1 : Mid lo hi v) (h2 : Mid lo hi w) :
    Mid lo (hi + 1) (v + w) := by
  have hh : (2 : ℚ) ^ (hi + 1) = 2 ^ hi + 2 ^ hi := by
    rw [zpow_add_one₀ (by norm_num)]; ring
  have hv := h1.nonneg
  have hw := h2.nonneg
  have hv' := h1.le
  have hw' := h2.le
  rcases h1 with rfl | h1
  · rcases h2 with rfl | h2
    · left; simp
    · right
      rw [hh]
      exact ⟨by linarith [h2.1], by linarith⟩
  · right
    rw [hh]
    exact ⟨by linarith [h1.1], by linarith⟩

theorem Mid.mul {lo hi lo' hi' : ℤ} {v w : ℚ} (h1 : Mid lo hi v) (h2 : Mid lo' hi' w) :
    Mid (lo + lo') (hi + hi') (v * w) := by
  have hv := h1.nonneg
  have hw := h2.nonneg
  rcases h1 with rfl | h1
  · left; simp
  rcases h2 with rfl | h2
  · left; simp
  right
  rw [zpow_add₀ (by norm_num), zpow_add₀ (by norm_num)]
  exact ⟨mul_le_mul h1.1 h2.1 (zpow_pos (by norm_num) _).le hv,
    mul_le_mul h1.2 h2.2 hw (zpow_pos (by norm_num) _).le⟩

/-- rounding a number in the normal range -/
theorem Mid.srnd {lo hi : ℤ} {v : ℚ} (h : Mid lo hi v) (hlo : fmt.emin + (fmt.prec - 1 : Int) ≤ lo) :
    Mid lo hi (fmt.srnd v) ∧ Close fmt.q 1 ((fmt.srnd v : ℚ) : ℝ) (v : ℝ) := by
  rcases h with rfl | ⟨h1, h2⟩
  · rw [fmt.srnd_zero]
    exact ⟨Or.inl rfl, by simp [Close]⟩
  · have hpos : 0 < v := lt_of_lt_of_le (zpow_pos (by norm_num) _) h1
    have hle : lo ≤ hi := by
      have := h1.trans h2
      exact (zpow_le_zpow_iff_right₀ (by norm_num)).1 this
    refine ⟨Or.inr ⟨fmt.le_srnd h1 (fmt.srnd_pow hlo), fmt.srnd_le h2 (fmt.srnd_pow (by omega))⟩, ?_⟩
    have hlog : lo ≤ Int.log 2 v := by
      apply (Int.zpow_le_iff_le_log (b := 2) (by norm_num) hpos).1
      exact_mod_cast h1
    have herr := fmt.roundPos_rel hpos (by omega)
    rw [fmt.srnd_of_nonneg hpos.le]
    apply fmt.close_of_err
    have h4 := (Rat.cast_le (K := ℝ)).2 herr
    push_cast at h4
    exact h4

end Fmt

namespace Flt
variable {fmt : Fmt}
open Fmt

/-- the computed number `a` stands for the exact number `t`: it is zero or between `2^lo` and
`2^hi`, and `k` roundings away -/
def Near (a : Flt fmt) (lo hi : ℤ) (k : ℕ) (t : ℝ) : Prop :=
  0 ≤ t ∧ ∃ v : ℚ, toExt a = .fin v ∧ Mid lo hi v ∧ Close fmt.q k (v : ℝ) t

theorem clip_of_le {lo hi : ℤ} {v : ℚ} (h : Mid lo hi v) (hhi : hi ≤ fmt.emax) :
    fmt.clip v = .fin v := by
  apply fmt.clip_fin
  rw [abs_of_nonneg h.nonneg]
  exact h.le.trans (fmt.pow_le_maxFin hhi)

theorem Near.mono {a : Flt fmt} {lo hi lo' hi' : ℤ} {k k' : ℕ} {t : ℝ} (h : Near a lo hi k t)
    (h1 : lo' ≤ lo) (h2 : hi ≤ hi') (h3 : k ≤ k') : Near a lo' hi' k' t := by
  obtain ⟨ht, v, e, hm, hc⟩ := h
  exact ⟨ht, v, e, hm.mono h1 h2, hc.mono fmt.one_le_q (by exact_mod_cast hm.nonneg) ht h3⟩

/-- one rounding of a number in the normal range -/
theorem near_rnd {a : Flt fmt} {lo hi : ℤ} {k : ℕ} {t : ℝ} {v : ℚ} (ht : 0 ≤ t)
    (ha : toExt a = fmt.clip (fmt.srnd v)) (hv : Mid lo hi v) (hc : Close fmt.q k (v : ℝ) t)
    (hlo : fmt.emin + (fmt.prec - 1 : Int) ≤ lo) (hhi : hi ≤ fmt.emax) : Near a lo hi (k + 1) t := by
  obtain ⟨h1, h2⟩ := hv.srnd (fmt := fmt) hlo
  refine ⟨ht, fmt.srnd v, ?_, h1, ?_⟩
  · rw [ha, clip_of_le h1 hhi]
  · rw [add_comm]
    exact h2.trans fmt.one_le_q hc

theorem Near.add {a b : Flt fmt} {lo hi : ℤ} {k : ℕ} {s t : ℝ} (ha : Near a lo hi k s)
    (hb : Near b lo hi k t) (hlo : fmt.emin + (fmt.prec - 1 : Int) ≤ lo) (hhi : hi + 1 ≤ fmt.emax) :
    Near (a +. b) lo (hi + 1) (k + 1) (s + t) := by
  obtain ⟨hs, v, e1, m1, c1⟩ := ha
  obtain ⟨ht, w, e2, m2, c2⟩ := hb
  refine near_rnd (add_nonneg hs ht) (toExt_add e1 e2) (m1.add m2) ?_ hlo hhi
  push_cast
  exact c1.add c2

theorem Near.mul {a b : Flt fmt} {lo hi lo' hi' : ℤ} {k l : ℕ} {s t : ℝ} (ha : Near a lo hi k s)
    (hb : Near b lo' hi' l t) (hlo : fmt.emin + (fmt.prec - 1 : Int) ≤ lo + lo')
    (hhi : hi + hi' ≤ fmt.emax) :
    Near (a *. b) (lo + lo') (hi + hi') (k + l + 1) (s * t) := by
  obtain ⟨hs, v, e1, m1, c1⟩ := ha
  obtain ⟨ht, w, e2, m2, c2⟩ := hb
  refine near_rnd (mul_nonneg hs ht) (toExt_mul e1 e2) (m1.mul m2) ?_ hlo hhi
  push_cast
  exact c1.mul fmt.one_le_q (by exact_mod_cast m1.nonneg) hs (by exact_mod_cast m2.nonneg) ht c2

/-- a quotient with a divisor that is not zero -/
theorem Near.div {a b : Flt fmt} {lo hi lo' hi' : ℤ} {k l : ℕ} {s t : ℝ} (ha : Near a lo hi k s)
    (hb : Near b lo' hi' l t) (htp : 0 < t) (hlo : fmt.emin + (fmt.prec - 1 : Int) ≤ lo - hi')
    (hhi : hi - lo' ≤ fmt.emax) :
    Near (a /. b) (lo - hi') (hi - lo') (k + l + 1) (s / t) := by
  obtain ⟨hs, v, e1, m1, c1⟩ := ha
  obtain ⟨ht, w, e2, m2, c2⟩ := hb
  have hw : 0 < w := by
    rcases m2.nonneg.eq_or_lt with h | h
    · exfalso
      have := c2.2
      rw [← h] at this
      simp at this
      linarith
    · exact h
  have hm : Mid (-hi') (-lo') w⁻¹ := by
    rcases m2 with h | ⟨h1, h2⟩
    · exact absurd h hw.ne'
    · right
      rw [zpow_neg, zpow_neg]
      exact ⟨inv_anti₀ hw h2, inv_anti₀ (zpow_pos (by norm_num) _) h1⟩
  refine near_rnd (div_nonneg hs ht) (toExt_div e1 e2 hw.ne') ?_ ?_ hlo hhi
  · rw [div_eq_mul_inv]
    exact m1.mul hm
  · push_cast
    rw [div_eq_mul_inv, div_eq_mul_inv]
    have hwr : (0 : ℝ) < w := by exact_mod_cast hw
    exact c1.mul fmt.one_le_q (by exact_mod_cast m1.nonneg) hs (inv_pos.2 hwr).le
      (inv_pos.2 htp).le (c2.inv hwr htp)

/-- a square root; the exponents of the argument are even -/
theorem Near.sqrt {a : Flt fmt} {lo hi : ℤ} {k : ℕ} {t : ℝ} (ha : Near a (2 * lo) (2 * hi) (2 * k) t)
    (hlo : fmt.emin + (fmt.prec - 1 : Int) ≤ lo) (hhi : hi ≤ fmt.emax) :
    Near (Num.sqrt a) lo hi (k + 1) (Real.sqrt t) := by
  obtain ⟨ht, v, e1, m1, c1⟩ := ha
  have hq := fmt.one_le_q
  obtain ⟨s, m, rfl, hv⟩ := toExt_fin e1
  rcases m1 with h0 | ⟨h1, h2⟩
  · have hm0 : m.val = 0 := by
      rw [h0] at hv
      cases s <;> simpa [sval] using hv
    have ht0 : t = 0 := by
      have := c1.2
      rw [h0] at this
      simp at this
      linarith
    refine ⟨Real.sqrt_nonneg _, 0, ?_, Or.inl rfl, ?_⟩
    · show toExt (Flt.sqrt (fin s m)) = _
      simp only [Flt.sqrt, hm0, if_true, toExt, sval_of_zero hm0]
    · simp [ht0, Close]
  · have hpos : 0 < v := lt_of_lt_of_le (zpow_pos (by norm_num) _) h1
    have hs : s = false := by
      cases s with
      | false => rfl
      | true =>
        have := m.nonneg
        simp [sval] at hv
        linarith
    subst hs
    have hm : m.val = v := hv
    have hne : ¬ m.val = 0 := by rw [hm]; exact hpos.ne'
    have hext : toExt (Num.sqrt (fin false m : Flt fmt))
        = fmt.clip (fmt.srnd (sqrtSticky fmt v)) := by
      show toExt (Flt.sqrt (fin false m)) = _
      simp only [Flt.sqrt, hne, if_false, Bool.false_eq_true]
      rw [toExt_ofExact, hm]
    have hlog : 2 * lo ≤ Int.log 2 v := by
      apply (Int.zpow_le_iff_le_log (b := 2) (by norm_num) hpos).1
      exact_mod_cast h1
    have hlo2 : lo ≤ hi := by
      have := h1.trans h2
      have := (zpow_le_zpow_iff_right₀ (a := (2 : ℚ)) (by norm_num)).1 this
      omega
    -- bounds of the exact root
    have hv1 : ((2 : ℝ) ^ lo) ^ 2 ≤ (v : ℝ) := by
      have h4 := (Rat.cast_le (K := ℝ)).2 h1
      push_cast at h4
      rw [← zpow_natCast, ← zpow_mul, mul_comm]
      exact_mod_cast h4
    have hv2 : (v : ℝ) ≤ ((2 : ℝ) ^ hi) ^ 2 := by
      have h4 := (Rat.cast_le (K := ℝ)).2 h2
      push_cast at h4
      rw [← zpow_natCast, ← zpow_mul, mul_comm]
      exact_mod_cast h4
    have hr1 : (2 : ℝ) ^ lo ≤ Real.sqrt v := Real.le_sqrt_of_sq_le hv1
    have hr2 : Real.sqrt (v : ℝ) ≤ 2 ^ hi := by
      rw [Real.sqrt_le_left (zpow_pos (by norm_num) _).le]
      exact hv2
    have hb := stickyBits_ge (fmt := fmt) v
    have hpp := fmt.prec_pos
    have hmid : Mid lo hi (sqrtSticky fmt v) := by
      right
      have hl2 : lo ≤ Int.log 2 v / 2 := by omega
      have hh2 : Int.log 2 v / 2 ≤ hi := by
        have : (2 : ℝ) ^ (Int.log 2 v / 2) ≤ 2 ^ hi := (sqrt_between hpos).1.trans hr2
        exact (zpow_le_zpow_iff_right₀ (a := (2 : ℝ)) (by norm_num)).1 this
      constructor
      · have h5 := (le_sticky_pow (fmt := fmt) hpos (e := Int.log 2 v / 2) (by omega) 1).2
          (by simpa using (sqrt_between hpos).1)
        push_cast at h5
        rw [one_mul] at h5
        exact (zpow_le_zpow_right₀ (by norm_num) hl2).trans h5
      · have h5 := (sticky_le_pow (fmt := fmt) hpos (e := hi) (by omega) 1).2
          (by simpa using hr2)
        push_cast at h5
        rwa [one_mul] at h5
    have hrel := sqrt_rel (fmt := fmt) hpos (by omega)
    have hst := (hmid.srnd (fmt := fmt) hlo).1
    refine ⟨Real.sqrt_nonneg _, fmt.srnd (sqrtSticky fmt v), ?_, hst, ?_⟩
    · rw [hext, clip_of_le hst hhi]
    · rw [fmt.srnd_of_nonneg hmid.nonneg, add_comm]
      exact (fmt.close_of_err hrel).trans hq (c1.sqrt hq)

end Flt
end GChop
